/-
C17, the weights of the verified formula: rounding to the configured number of decimals.
-/
import Verif.Net
import Mathlib.Tactic

namespace Fossil

theorem roundHalfEven_close (x : ℚ) : |x - roundHalfEven x| ≤ 1 / 2 := by
  unfold roundHalfEven
  have h1 := Int.floor_le x
  have h2 := Int.lt_floor_add_one x
  simp only
  split_ifs with h3 h4 h5
  · rw [abs_le]; constructor <;> linarith
  · push_cast; rw [abs_le]; constructor <;> linarith
  · rw [abs_le]; constructor <;> linarith
  · push_cast; rw [abs_le]; constructor <;> linarith

/-- On a tie the even neighbour is taken (numpy's rule). -/
theorem roundHalfEven_tie (m : ℤ) : (roundHalfEven (m + 1/2)) % 2 = 0 := by
  unfold roundHalfEven
  have : ⌊(m + 1/2 : ℚ)⌋ = m := by rw [Int.floor_eq_iff]; constructor <;> norm_num
  rw [this]
  simp only [add_sub_cancel_left]
  norm_num
  split_ifs with h
  · exact h
  · omega

/-- **C17.** Preparation of a weight for verification: a negative ROUNDING leaves it unchanged; with ROUNDING = k ≥ 0 the verified weight
is a multiple of 10^(-k) at distance at most half a unit from the learned one, and the even multiple if two are equally near. -/
theorem C17_rounding (rnd : ℤ) (w : ℚ) :
    (rnd < 0 → roundBy rnd w = w) ∧
    (∀ k : ℕ, rnd = k → ∃ m : ℤ, roundBy rnd w = m / 10 ^ k ∧ |w - roundBy rnd w| ≤ 1 / 2 / 10 ^ k ∧
      (|w - roundBy rnd w| = 1 / 2 / 10 ^ k → m % 2 = 0)) := by
  refine ⟨fun h => by rw [roundBy, if_pos h], ?_⟩
  rintro k rfl
  have hk : (0:ℚ) < 10 ^ k := by positivity
  have e : roundBy (k:ℤ) w = (roundHalfEven (w * 10 ^ k) : ℚ) / 10 ^ k := by
    rw [roundBy, if_neg (by omega)]; rfl
  have hd : w - roundBy (k:ℤ) w = (w * 10 ^ k - roundHalfEven (w * 10 ^ k)) / 10 ^ k := by rw [e]; field_simp
  refine ⟨_, e, ?_, fun h => ?_⟩
  · rw [hd, abs_div, abs_of_pos hk]
    exact div_le_div_of_nonneg_right (roundHalfEven_close _) hk.le
  · rw [hd, abs_div, abs_of_pos hk, div_left_inj' hk.ne'] at h
    generalize w * 10 ^ k = x at h
    -- a distance of one half means a tie
    have h1 := Int.floor_le x
    have h2 := Int.lt_floor_add_one x
    have hx : x = (⌊x⌋ : ℚ) + 1 / 2 := by
      unfold roundHalfEven at h
      simp only at h
      split_ifs at h with h3 h4 h5
      · rw [abs_of_nonneg (by linarith)] at h; linarith
      · push_cast at h; rw [abs_of_nonpos (by linarith)] at h; linarith
      · linarith
      · linarith
    rw [hx]; exact roundHalfEven_tie _

/-- A weight already on the grid is kept; rounding twice changes nothing. -/
theorem C17_rounding_idempotent (rnd : ℤ) (w : ℚ) : roundBy rnd (roundBy rnd w) = roundBy rnd w := by
  by_cases h : rnd < 0
  · rw [(C17_rounding rnd _).1 h]
  · have hg : ∀ m : ℤ, roundBy rnd ((m : ℚ) / 10 ^ rnd.toNat) = m / 10 ^ rnd.toNat := by
      intro m
      rw [roundBy, if_neg h, npRound, div_mul_cancel₀ _ (by positivity)]
      congr 2
      unfold roundHalfEven
      simp
    have e : roundBy rnd w = (roundHalfEven (w * 10 ^ rnd.toNat) : ℚ) / 10 ^ rnd.toNat := by rw [roundBy, if_neg h]; rfl
    rw [e]; exact hg _

/-- Concrete: 2.5 → 2 and 3.5 → 4 with ROUNDING = 0; 0.0004 → 0 with ROUNDING = 3. -/
example : roundBy 0 (5/2) = 2 ∧ roundBy 0 (7/2) = 4 ∧ roundBy 3 (4/10000) = 0 ∧ roundBy (-1) (4/10000) = 4/10000 := by
  refine ⟨?_, ?_, ?_, ?_⟩ <;> decide +kernel

end Fossil

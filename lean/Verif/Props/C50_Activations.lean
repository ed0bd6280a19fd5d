/-
C50: the activation a user configures is the one the network applies.
-/
import Verif.Lemmas.Act

namespace Fossil

namespace Spec

/-- The block (0-based) of unit `i` when `len` units are cut into `n` consecutive blocks of `len / n` units, the last one taking the rest. -/
def block (n len i : ℕ) : ℕ := if len / n = 0 then n - 1 else min (i / (len / n)) (n - 1)

/-- What the user guide (user-guide.md, section 20) and the names say a unit does: unit `i` of a layer with `len` units.
`POLY_n`: orders 1 to `n`, block by block. `EVEN_POLY_n`: the even orders from 2 to `n`, block by block. -/
noncomputable def documented : ActivationType → ℕ → ℕ → ℝ → ℝ
  | .IDENTITY, _, _, t => t
  | .LINEAR, _, _, t => t
  | .RELU, _, _, t => max t 0
  | .SQUARE, _, _, t => t ^ 2
  | .RELU_SQUARE, _, _, t => (max t 0) ^ 2
  | .REQU, _, _, t => (max t 0) ^ 2
  | .TANH, _, _, t => Real.tanh t
  | .TANH_SQUARE, _, _, t => Real.tanh t ^ 2
  | .SIGMOID, _, _, t => 1 / (1 + Real.exp (-t))
  | .SOFTPLUS, _, _, t => Real.log (1 + Real.exp t)
  | .SHIFTED_SOFTPLUS, _, _, t => Real.log (1 + Real.exp t) - Real.log 2
  | .SHIFTED_SOFTPLUS_SQUARE, _, _, t => (Real.log (1 + Real.exp t) - Real.log 2) ^ 2
  | .COSH, _, _, t => Real.cosh t
  | .POLY_2, len, i, t => t ^ (block 2 len i + 1)
  | .POLY_3, len, i, t => t ^ (block 3 len i + 1)
  | .POLY_4, len, i, t => t ^ (block 4 len i + 1)
  | .POLY_5, len, i, t => t ^ (block 5 len i + 1)
  | .POLY_6, len, i, t => t ^ (block 6 len i + 1)
  | .POLY_7, len, i, t => t ^ (block 7 len i + 1)
  | .POLY_8, len, i, t => t ^ (block 8 len i + 1)
  | .EVEN_POLY_4, len, i, t => t ^ (2 * (block 2 len i + 1))
  | .EVEN_POLY_6, len, i, t => t ^ (2 * (block 3 len i + 1))
  | .EVEN_POLY_8, len, i, t => t ^ (2 * (block 4 len i + 1))
  | .EVEN_POLY_10, len, i, t => t ^ (2 * (block 5 len i + 1))
  | .RATIONAL, _, _, t => t

end Spec

open Spec

theorem partIndex_replicate (h m : ℕ) (last : ℕ) : ∀ i, i < m * h + last →
    partIndex (List.replicate m h ++ [last]) i = if h = 0 then m else min (i / h) m := by
  induction m with
  | zero => intro i hi; simp only [Nat.zero_mul, Nat.zero_add] at hi; simp [partIndex, hi]
  | succ m ih =>
    intro i hi
    rw [List.replicate_succ, List.cons_append, partIndex]
    by_cases h0 : h = 0
    · subst h0
      rw [if_neg (by omega), ih _ (by simpa using hi)]
      simp; omega
    · by_cases hlt : i < h
      · rw [if_pos hlt, if_neg h0, Nat.div_eq_of_lt hlt]; simp
      · rw [if_neg hlt, if_neg h0, ih (i - h) (by rw [Nat.succ_mul] at hi; omega), if_neg h0]
        have : i / h = (i - h) / h + 1 := by
          rw [← Nat.sub_add_cancel (not_lt.1 hlt), Nat.add_div_right _ (Nat.pos_of_ne_zero h0)]; simp
        rw [this]
        omega

theorem polyIdx_block (n len i : ℕ) (hn : 0 < n) (hi : i < len) : polyIdx n len i = block n len i := by
  unfold polyIdx
  have hmul : (n - 1) * (len / n) + len / n ≤ len := by
    have h1 : (n - 1) * (len / n) + len / n = n * (len / n) := by
      obtain ⟨m, rfl⟩ : ∃ m, n = m + 1 := ⟨n - 1, by omega⟩
      simp [Nat.succ_mul]
    rw [h1]; exact Nat.mul_div_le len n
  have hlen : (polyParts n (List.replicate len ())).map List.length
      = List.replicate (n - 1) (len / n) ++ [len - (n - 1) * (len / n)] := by
    simp only [polyParts, List.length_replicate, List.map_append, List.map_map, List.map_cons, List.map_nil, List.length_drop]
    congr 1
    apply List.ext_getElem
    · simp
    · intro j h1 h2
      simp only [List.length_map, List.length_range] at h1
      simp only [List.getElem_map, List.getElem_range, Function.comp, List.length_take, List.length_drop, List.length_replicate,
        List.getElem_replicate]
      have : (j + 1) * (len / n) ≤ (n - 1) * (len / n) := Nat.mul_le_mul_right _ (by omega)
      rw [Nat.succ_mul] at this
      omega
  rw [hlen, partIndex_replicate _ _ _ i (by omega)]
  rfl

/-- C50. Every activation of the user guide other than COSH, RELU_SQUARE, REQU, RATIONAL and the EVEN_POLY ones does what its entry says, for
every layer width and every input. -/
theorem C50_activation_documented_partial (a : ActivationType)
    (ha : a ∉ [.COSH, .RELU_SQUARE, .REQU, .RATIONAL, .EVEN_POLY_4, .EVEN_POLY_6, .EVEN_POLY_8, .EVEN_POLY_10]) :
    ∃ act, activationFcn a = some act ∧ ∀ x : List ℝ, act.forward x = x.mapIdx (documented a x.length) := by
  have hpoly : ∀ (n : ℕ) (hn : 0 < n) (x : List ℝ),
      (Act.polyN n).forward x = x.mapIdx (fun i t => t ^ (block n x.length i + 1)) := by
    intro n hn x
    rw [Act.forward_eq]
    apply List.ext_getElem
    · simp
    · intro i h1 h2
      simp only [List.length_mapIdx] at h1
      simp [Act.scal, polyIdx_block n x.length i hn h1]
  have hp2 : ∀ x : List ℝ, Act.poly2.forward x = x.mapIdx (fun i t => t ^ (block 2 x.length i + 1)) := by
    intro x
    rw [Act.forward_eq]
    apply List.ext_getElem
    · simp
    · intro i h1 h2
      simp only [List.length_mapIdx] at h1
      simp only [List.getElem_mapIdx, Act.scal, block]
      by_cases h0 : x.length / 2 = 0
      · rw [if_pos h0, if_neg (by omega)]
      · rw [if_neg h0]
        split
        · rename_i hi; rw [Nat.div_eq_of_lt hi]; simp
        · rename_i hi
          have : 1 ≤ i / (x.length / 2) := by
            rw [Nat.one_le_div_iff (Nat.pos_of_ne_zero h0)]; omega
          rw [Nat.min_eq_right (by omega)]
  cases a <;> simp at ha <;> refine ⟨_, rfl, fun x => ?_⟩
  case POLY_2 => exact hp2 x
  case POLY_3 => exact hpoly 3 (by omega) x
  case POLY_4 => exact hpoly 4 (by omega) x
  case POLY_5 => exact hpoly 5 (by omega) x
  case POLY_6 => exact hpoly 6 (by omega) x
  case POLY_7 => exact hpoly 7 (by omega) x
  case POLY_8 => exact hpoly 8 (by omega) x
  all_goals
    rw [Act.forward_eq]; rfl

example : ActivationType.POLY_4 ∉ [ActivationType.COSH, .RELU_SQUARE, .REQU, .RATIONAL, .EVEN_POLY_4, .EVEN_POLY_6, .EVEN_POLY_8, .EVEN_POLY_10] := by
  simp

/-- COSH: the network applies `cosh t - 1`, at every input one less than documented. -/
theorem C50_cosh_shifted (x : List ℝ) : ∃ act, activationFcn .COSH = some act ∧
    act.forward x = x.map (fun t => documented .COSH x.length 0 t - 1) := ⟨.cosh, rfl, rfl⟩

/-- RELU_SQUARE and REQU: the network applies the plain ReLU; at the input 2 it gives 2 instead of 4. -/
theorem C50_requ_is_relu : activationFcn .RELU_SQUARE = some .relu ∧ activationFcn .REQU = some .relu ∧
    Act.relu.forward [2] = [2] ∧ [(2:ℝ)].mapIdx (documented .REQU 1) = [4] := by
  refine ⟨rfl, rfl, by simp [Act.forward], ?_⟩
  simp [documented]; norm_num

/-- RATIONAL is accepted as a configuration value but there is no such activation. -/
theorem C50_rational_missing (a : ActivationType) : activationFcn a = none ↔ a = .RATIONAL := by
  cases a <;> simp [activationFcn]

/-- EVEN_POLY_n is documented to have the even orders 2 to `n`. In every layer with at least `n` units the first unit is the constant 1 (order 0)
and the last one has order `2(n-1) > n`. -/
theorem C50_even_poly_orders (n : ℕ) (hn : 2 < n) (x : List ℝ) (hx : n ≤ x.length) :
    ((Act.evenPolyN n).forward x)[0]? = some 1 ∧
    ((Act.evenPolyN n).forward x)[x.length - 1]? = (x[x.length - 1]?).map (· ^ (2 * (n - 1))) ∧ n < 2 * (n - 1) := by
  have hd : 0 < x.length / n := Nat.div_pos hx (by omega)
  have hd' : x.length / n ≠ 0 := by omega
  refine ⟨?_, ?_, by omega⟩
  · rw [Act.forward_eq]
    have h0 : 0 < x.length := by omega
    rw [List.getElem?_eq_getElem (by simpa using h0)]
    simp [Act.scal, polyIdx_block n x.length 0 (by omega) h0, block]
    omega
  · rw [Act.forward_eq]
    have h0 : x.length - 1 < x.length := by omega
    rw [List.getElem?_eq_getElem (by simpa using h0), List.getElem?_eq_getElem h0]
    have hb : block n x.length (x.length - 1) = n - 1 := by
      rw [block, if_neg hd']
      have : n - 1 ≤ (x.length - 1) / (x.length / n) := by
        rw [Nat.le_div_iff_mul_le hd]
        have h1 : n * (x.length / n) ≤ x.length := Nat.mul_div_le _ _
        have h2 : n * (x.length / n) = (n - 1) * (x.length / n) + x.length / n := by
          obtain ⟨m, rfl⟩ : ∃ m, n = m + 1 := ⟨n - 1, by omega⟩
          simp [Nat.succ_mul]
        omega
      omega
    simp [Act.scal, polyIdx_block n x.length (x.length - 1) (by omega) h0, hb]

example : (Act.evenPolyN 4).forward [5, 2, 2, 2] = [1, 4, 16, 64] := by
  simp [Act.forward, polyCat, polyParts, List.range, List.range.loop]; norm_num

end Fossil

/-
C41: the names under which activations are recorded describe them.
-/
import Verif.Csv
import Verif.Props.C50_Activations

namespace Fossil

namespace Spec

/-- What a recorded activation name stands for: `phi`k is the `k`-th power (the highest order of the layer), the other names are those of
the functions. -/
noncomputable def nameMeans (s : String) (t : ℝ) : Option ℝ :=
  match s with
  | "identity" => some t
  | "ReLU" => some (max t 0)
  | "ReLUphi2" => some ((max t 0) ^ 2)
  | "sigmat" => some (Real.tanh t)
  | "sigmat2" => some (Real.tanh t ^ 2)
  | "sigmasig" => some (1 / (1 + Real.exp (-t)))
  | "sigmasoft" => some (Real.log (1 + Real.exp t))
  | "cosh" => some (Real.cosh t)
  | "phi1" => some (t ^ 1)
  | "phi2" => some (t ^ 2)
  | "phi3" => some (t ^ 3)
  | "phi4" => some (t ^ 4)
  | "phi5" => some (t ^ 5)
  | "phi6" => some (t ^ 6)
  | "phi7" => some (t ^ 7)
  | "phi8" => some (t ^ 8)
  | "phi10" => some (t ^ 10)
  | _ => none

end Spec

open Spec

theorem block_last (n len : ℕ) (hn : 0 < n) (hl : 0 < len) : block n len (len - 1) = n - 1 := by
  unfold block
  split
  · rfl
  · rename_i h
    have h1 : n * (len / n) ≤ len := Nat.mul_div_le _ _
    have h2 : n * (len / n) = (n - 1) * (len / n) + len / n := by
      obtain ⟨m, rfl⟩ : ∃ m, n = m + 1 := ⟨n - 1, by omega⟩
      simp [Nat.succ_mul]
    have h3 : n - 1 ≤ (len - 1) / (len / n) := by
      have h0 : 0 < len / n := Nat.pos_of_ne_zero h
      rw [Nat.le_div_iff_mul_le h0]
      generalize len / n = q at *
      omega
    omega

/-- **C41, activation names.** The name recorded for an activation is that of the function its last unit (the one of highest order) is
documented to apply, whatever the width of the layer. RATIONAL has no documented function. -/
theorem C41_activation_names {a : ActivationType} {s : String} (h : activationName a = .ok s) (ha : a ≠ .RATIONAL) (len : ℕ) (hl : 0 < len)
    (t : ℝ) : nameMeans s t = some (documented a len (len - 1) t) := by
  cases a <;> simp only [activationName, reduceCtorEq, Except.ok.injEq] at h <;> subst h <;>
    simp [nameMeans, documented, block_last _ len _ hl] at ha ⊢

example : activationName .POLY_7 = .ok "phi7" ∧ nameMeans "phi7" 2 = some 128 := ⟨rfl, by simp [nameMeans]; norm_num⟩

/-- The recorded name does not identify the activation: it names only the highest order. -/
theorem C41_activation_names_shared : activationName .POLY_4 = activationName .EVEN_POLY_4 ∧
    activationName .SQUARE = activationName .POLY_2 ∧ activationName .RELU_SQUARE = activationName .REQU := ⟨rfl, rfl, rfl⟩

end Fossil

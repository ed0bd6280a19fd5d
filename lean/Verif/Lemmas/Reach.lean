/-
Reach-while-stay core: a function that decreases at a fixed rate inside a set whose frontier it cannot reach.
-/
import Verif.Lemmas.Calc

namespace Fossil
open Set

/-- While inside `A` with `g ≤ 0` the rate is at most `-γ`, and on the frontier `g > 0`: the trajectory stays in
`A` and `g` decreases linearly. -/
theorem reach_core {n : ℕ} {A : Set (Pt n)} {ξ : ℝ → Pt n} {g g' : ℝ → ℝ} {b γ : ℝ} (hγ : 0 < γ)
    (hξ : ContinuousOn ξ (Icc 0 b))
    (hd : ∀ t ∈ Icc 0 b, HasDerivWithinAt g (g' t) (Icc 0 b) t)
    (hA : ξ 0 ∈ A) (h0 : g 0 ≤ 0)
    (hfr : ∀ t ∈ Icc 0 b, ξ t ∈ frontier A → 0 < g t)
    (hin : ∀ t ∈ Icc 0 b, ξ t ∈ A → g t ≤ 0 → g' t ≤ -γ) :
    ∀ t ∈ Icc 0 b, ξ t ∈ A ∧ g t ≤ g 0 - γ * t := by
  have h1 := stay_in_set (c := 0) hξ hd hA h0 hfr
    (fun t ht hA e => by have := hin t ht hA e.le; linarith)
  intro t ht
  refine ⟨(h1 t ht).1, ?_⟩
  have := rate_le (k := -γ) hd (fun r hr => hin r (Ico_subset_Icc_self hr) (h1 r (Ico_subset_Icc_self hr)).1
    (h1 r (Ico_subset_Icc_self hr)).2) t ht
  linarith

/-- The same up to the first visit of a target set. -/
theorem reach_until {n : ℕ} {A G : Set (Pt n)} {ξ : ℝ → Pt n} {g g' : ℝ → ℝ} {T γ : ℝ} (hγ : 0 < γ)
    (hξ : ContinuousOn ξ (Icc 0 T))
    (hd : ∀ t ∈ Icc 0 T, HasDerivWithinAt g (g' t) (Icc 0 T) t)
    (hA : ξ 0 ∈ A) (h0 : g 0 ≤ 0)
    (hfr : ∀ t ∈ Icc 0 T, ξ t ∈ frontier A → 0 < g t)
    (hin : ∀ t ∈ Icc 0 T, ξ t ∈ A → ξ t ∉ G → g t ≤ 0 → g' t ≤ -γ) :
    ∀ t ∈ Icc 0 T, (∀ r ∈ Icc 0 t, ξ r ∉ G) → ξ t ∈ A ∧ g t ≤ g 0 - γ * t := by
  intro t ht hno
  refine reach_core hγ (hξ.mono (Icc_subset_Icc_right ht.2)) (deriv_restrict hd le_rfl ht.2) hA h0
    (fun r hr => hfr r ⟨hr.1, hr.2.trans ht.2⟩) (fun r hr a b => hin r ⟨hr.1, hr.2.trans ht.2⟩ a (hno r hr) b)
    t ⟨ht.1, le_rfl⟩

end Fossil

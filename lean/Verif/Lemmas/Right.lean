/-
Scalar functions along a curve that is continuous and has a derivative to the right at each time: curves whose velocity may jump.
-/
import Verif.Lemmas.Reach

namespace Fossil
open Set

/-- `g` is continuous on `[a, b]` and has the right derivative `g' t` at each `t` of `[a, b)`. -/
structure RightC (g g' : ℝ → ℝ) (a b : ℝ) : Prop where
  cont : ContinuousOn g (Icc a b)
  deriv : ∀ t ∈ Ico a b, HasDerivWithinAt g (g' t) (Ici t) t

theorem RightC.restrict {g g' : ℝ → ℝ} {a b s t : ℝ} (h : RightC g g' a b) (hs : a ≤ s) (ht : t ≤ b) : RightC g g' s t :=
  ⟨h.cont.mono (Icc_subset_Icc hs ht), fun r hr => h.deriv r ⟨hs.trans hr.1, hr.2.trans_le ht⟩⟩

/-- Fencing: a function whose derivative is negative wherever it equals `c` cannot rise above `c`. -/
theorem RightC.fence {g g' : ℝ → ℝ} {a b c : ℝ} (h : RightC g g' a b) (h0 : g a ≤ c)
    (hb : ∀ t ∈ Ico a b, g t = c → g' t < 0) : ∀ t ∈ Icc a b, g t ≤ c := by
  intro t ht
  exact image_le_of_deriv_right_lt_deriv_boundary' (B := fun _ => c) (B' := fun _ => 0) h.cont
    h.deriv h0 continuousOn_const (fun x _ => hasDerivWithinAt_const _ _ _) hb ht

/-- Bounded derivative. -/
theorem RightC.rate {g g' : ℝ → ℝ} {a b k : ℝ} (h : RightC g g' a b)
    (hb : ∀ t ∈ Ico a b, g' t ≤ k) : ∀ t ∈ Icc a b, g t ≤ g a + k * (t - a) := by
  intro t ht
  refine image_le_of_deriv_right_le_deriv_boundary (B := fun t => g a + k * (t - a)) (B' := fun _ => k)
    h.cont h.deriv (by simp) (by fun_prop) (fun x _ => ?_) hb ht
  have : HasDerivAt (fun t => g a + k * (t - a)) (k * 1) x :=
    (((hasDerivAt_id x).sub_const a).const_mul k).const_add (g a)
  simpa using this.hasDerivWithinAt

/-- Staying in a set whose frontier has `g > c`, given that inside the set `g` cannot cross `c` upwards. -/
theorem RightC.stay {n : ℕ} {A : Set (Pt n)} {ξ : ℝ → Pt n} {g g' : ℝ → ℝ} {a b c : ℝ}
    (hξ : ContinuousOn ξ (Icc a b)) (hd : RightC g g' a b) (hA : ξ a ∈ A) (h0 : g a ≤ c)
    (hfr : ∀ t ∈ Icc a b, ξ t ∈ frontier A → c < g t)
    (hin : ∀ t ∈ Ico a b, ξ t ∈ A → g t = c → g' t < 0) :
    ∀ t ∈ Icc a b, ξ t ∈ A ∧ g t ≤ c := by
  have hall : ∀ t ∈ Icc a b, ξ t ∈ A := by
    intro t ht
    by_contra hc
    obtain ⟨τ, hτ, hf, hbef⟩ := exists_exit ht.1 (hξ.mono (Icc_subset_Icc_right ht.2)) hA hc
    have := (hd.restrict le_rfl (hτ.2.trans ht.2)).fence h0 (fun s hs e => hin s ⟨hs.1, hs.2.trans_le (hτ.2.trans ht.2)⟩ (hbef s hs) e)
      τ ⟨hτ.1, le_rfl⟩
    exact absurd (hfr τ ⟨hτ.1, hτ.2.trans ht.2⟩ hf) (not_lt.2 this)
  intro t ht
  exact ⟨hall t ht, hd.fence h0 (fun s hs e => hin s hs (hall s (Ico_subset_Icc_self hs)) e) t ht⟩

/-- While inside `A` and outside `G` with `g ≤ 0` the rate is at most `-γ`, and on the frontier `g > 0`: up to the first visit of `G` the curve stays in `A` and `g` decreases
linearly. -/
theorem RightC.reach_until {n : ℕ} {A G : Set (Pt n)} {ξ : ℝ → Pt n} {g g' : ℝ → ℝ} {T γ : ℝ} (hγ : 0 < γ)
    (hξ : ContinuousOn ξ (Icc 0 T)) (hd : RightC g g' 0 T) (hA : ξ 0 ∈ A) (h0 : g 0 ≤ 0)
    (hfr : ∀ t ∈ Icc 0 T, ξ t ∈ frontier A → 0 < g t)
    (hin : ∀ t ∈ Ico 0 T, ξ t ∈ A → ξ t ∉ G → g t ≤ 0 → g' t ≤ -γ) :
    ∀ t ∈ Icc 0 T, (∀ r ∈ Icc 0 t, ξ r ∉ G) → ξ t ∈ A ∧ g t ≤ g 0 - γ * t := by
  intro t ht hno
  have hd' := hd.restrict le_rfl ht.2
  have h1 := RightC.stay (c := 0) (hξ.mono (Icc_subset_Icc_right ht.2)) hd' hA h0 (fun r hr => hfr r ⟨hr.1, hr.2.trans ht.2⟩)
    (fun r hr hrA e => by have := hin r ⟨hr.1, hr.2.trans_le ht.2⟩ hrA (hno r (Ico_subset_Icc_self hr)) e.le; linarith)
  refine ⟨(h1 t ⟨ht.1, le_rfl⟩).1, ?_⟩
  have := hd'.rate (k := -γ) (fun r hr => hin r ⟨hr.1, hr.2.trans_le ht.2⟩ (h1 r (Ico_subset_Icc_self hr)).1 (hno r (Ico_subset_Icc_self hr))
    (h1 r (Ico_subset_Icc_self hr)).2) t ⟨ht.1, le_rfl⟩
  linarith

end Fossil

/-
Calculus lemmas about scalar functions along a trajectory on a closed time interval.
-/
import Mathlib.Analysis.Calculus.MeanValue
import Mathlib.Analysis.Calculus.Deriv.MeanValue
import Verif.Props.C23_Boundary

namespace Fossil
open Set Filter Topology

theorem ici_deriv {g : ℝ → ℝ} {d a b t : ℝ} (h : HasDerivWithinAt g d (Icc a b) t) (ht : t ∈ Ico a b) :
    HasDerivWithinAt g d (Ici t) t := by
  have h1 : HasDerivWithinAt g d (Icc t b) t := h.mono (Icc_subset_Icc_left ht.1)
  exact h1.mono_of_mem_nhdsWithin (Icc_mem_nhdsGE ht.2)

theorem cont_of_deriv {g g' : ℝ → ℝ} {a b : ℝ}
    (hd : ∀ t ∈ Icc a b, HasDerivWithinAt g (g' t) (Icc a b) t) : ContinuousOn g (Icc a b) :=
  fun t ht => (hd t ht).continuousWithinAt

/-- Fencing: a function whose derivative is negative wherever it equals `c` cannot rise above `c`. -/
theorem fence_le {g g' : ℝ → ℝ} {a b c : ℝ}
    (hd : ∀ t ∈ Icc a b, HasDerivWithinAt g (g' t) (Icc a b) t) (h0 : g a ≤ c)
    (hb : ∀ t ∈ Ico a b, g t = c → g' t < 0) : ∀ t ∈ Icc a b, g t ≤ c := by
  intro t ht
  exact image_le_of_deriv_right_lt_deriv_boundary' (B := fun _ => c) (B' := fun _ => 0) (cont_of_deriv hd)
    (fun x hx => ici_deriv (hd x (Ico_subset_Icc_self hx)) hx) h0 continuousOn_const
    (fun x _ => hasDerivWithinAt_const _ _ _) hb ht

/-- At the right end of an interval on which `g` stays at or below its final value the derivative is `≥ 0`. -/
theorem left_deriv_nonneg {g : ℝ → ℝ} {d a b : ℝ} (hab : a < b)
    (hd : HasDerivWithinAt g d (Icc a b) b) (hle : ∀ t ∈ Ico a b, g t ≤ g b) : 0 ≤ d := by
  have h1 : HasDerivWithinAt g d (Ico a b) b := hd.mono Ico_subset_Icc_self
  rw [hasDerivWithinAt_iff_tendsto_slope' (by simp)] at h1
  haveI : (𝓝[Ico a b] b).NeBot := by
    rw [nhdsWithin_Ico_eq_nhdsLT hab]; infer_instance
  refine ge_of_tendsto h1 ?_
  filter_upwards [self_mem_nhdsWithin] with t ht
  rw [slope_def_field]
  exact div_nonneg_of_nonpos (by linarith [hle t ht]) (by linarith [ht.2])

/-- Strict fencing. -/
theorem fence_lt {g g' : ℝ → ℝ} {a b c : ℝ}
    (hd : ∀ t ∈ Icc a b, HasDerivWithinAt g (g' t) (Icc a b) t) (h0 : g a < c)
    (hb : ∀ t ∈ Icc a b, g t = c → g' t < 0) : ∀ t ∈ Icc a b, g t < c := by
  have hle := fence_le hd h0.le (fun t ht => hb t (Ico_subset_Icc_self ht))
  intro t ht
  refine lt_of_le_of_ne (hle t ht) fun e => ?_
  have hat : a < t := by
    refine lt_of_le_of_ne ht.1 ?_
    rintro rfl; exact h0.ne e
  have h1 : HasDerivWithinAt g (g' t) (Icc a t) t := (hd t ht).mono (Icc_subset_Icc_right ht.2)
  have h2 := left_deriv_nonneg hat h1 (fun s hs => by
    rw [e]; exact hle s ⟨hs.1, hs.2.le.trans ht.2⟩)
  exact absurd (hb t ht e) (not_lt.2 h2)

/-- Bounded derivative. -/
theorem rate_le {g g' : ℝ → ℝ} {a b k : ℝ}
    (hd : ∀ t ∈ Icc a b, HasDerivWithinAt g (g' t) (Icc a b) t)
    (hb : ∀ t ∈ Ico a b, g' t ≤ k) : ∀ t ∈ Icc a b, g t ≤ g a + k * (t - a) := by
  intro t ht
  refine image_le_of_deriv_right_le_deriv_boundary (B := fun t => g a + k * (t - a)) (B' := fun _ => k)
    (cont_of_deriv hd) (fun x hx => ici_deriv (hd x (Ico_subset_Icc_self hx)) hx) (by simp)
    (by fun_prop) (fun x _ => ?_) hb ht
  have : HasDerivAt (fun t => g a + k * (t - a)) (k * 1) x :=
    (((hasDerivAt_id x).sub_const a).const_mul k).const_add (g a)
  simpa using this.hasDerivWithinAt

theorem deriv_restrict {g g' : ℝ → ℝ} {a b s t : ℝ}
    (hd : ∀ t ∈ Icc a b, HasDerivWithinAt g (g' t) (Icc a b) t) (hs : a ≤ s) (ht : t ≤ b) :
    ∀ r ∈ Icc s t, HasDerivWithinAt g (g' r) (Icc s t) r :=
  fun r hr => (hd r ⟨hs.trans hr.1, hr.2.trans ht⟩).mono (Icc_subset_Icc hs ht)

theorem antitone_of {g g' : ℝ → ℝ} {a b : ℝ}
    (hd : ∀ t ∈ Icc a b, HasDerivWithinAt g (g' t) (Icc a b) t)
    (hb : ∀ t ∈ Icc a b, g' t ≤ 0) : AntitoneOn g (Icc a b) := by
  intro s hs t ht hst
  have := rate_le (k := 0) (deriv_restrict hd hs.1 ht.2)
    (fun r hr => hb r ⟨hs.1.trans hr.1, hr.2.le.trans ht.2⟩) t ⟨hst, le_rfl⟩
  simpa using this

theorem strictAnti_of {g g' : ℝ → ℝ} {a b : ℝ}
    (hd : ∀ t ∈ Icc a b, HasDerivWithinAt g (g' t) (Icc a b) t)
    (hb : ∀ t ∈ Ioo a b, g' t < 0) : StrictAntiOn g (Icc a b) := by
  refine strictAntiOn_of_deriv_neg (convex_Icc a b) (cont_of_deriv hd) fun x hx => ?_
  rw [interior_Icc] at hx
  have := (hd x (Ioo_subset_Icc_self hx)).hasDerivAt (Icc_mem_nhds hx.1 hx.2)
  rw [this.deriv]; exact hb x hx

/-- A function below `c` at the start, non-increasing wherever it is `≤ c`, never rises. -/
theorem sublevel_antitone {g g' : ℝ → ℝ} {a b c : ℝ}
    (hd : ∀ t ∈ Icc a b, HasDerivWithinAt g (g' t) (Icc a b) t) (h0 : g a < c)
    (hb : ∀ t ∈ Icc a b, g t ≤ c → g' t ≤ 0) : ∀ t ∈ Icc a b, g t ≤ g a := by
  intro t ht
  by_contra hc
  push Not at hc
  -- exit from the sub-level set `{g ≤ g a}`, by a line of small positive slope
  obtain ⟨ε, hε, hε1, hε2⟩ : ∃ ε > 0, g a + ε * (t - a) < c ∧ g a + ε * (t - a) < g t := by
    have hta : 0 ≤ t - a := by linarith [ht.1]
    set m := min (c - g a) (g t - g a) with hm
    have hm0 : 0 < m := lt_min (by linarith) (by linarith)
    refine ⟨m / (2 * (t - a + 1)), by positivity, ?_⟩
    have h1 : m / (2 * (t - a + 1)) * (t - a) < m := by
      rw [div_mul_eq_mul_div, div_lt_iff₀ (by positivity)]
      nlinarith
    exact ⟨by linarith [min_le_left (c - g a) (g t - g a)], by linarith [min_le_right (c - g a) (g t - g a)]⟩
  have hd' := deriv_restrict hd le_rfl ht.2
  have key : g t ≤ g a + ε * (t - a) := by
    refine image_le_of_deriv_right_lt_deriv_boundary' (B := fun s => g a + ε * (s - a)) (B' := fun _ => ε)
      (cont_of_deriv hd') (fun x hx => ici_deriv (hd' x (Ico_subset_Icc_self hx)) hx) (by simp)
      (by fun_prop) (fun x _ => ?_) (fun x hx e => ?_) ⟨ht.1, le_rfl⟩
    · have : HasDerivAt (fun s => g a + ε * (s - a)) (ε * 1) x :=
        (((hasDerivAt_id x).sub_const a).const_mul ε).const_add (g a)
      simpa using this.hasDerivWithinAt
    · refine lt_of_le_of_lt (hb x ⟨hx.1, hx.2.le.trans ht.2⟩ ?_) hε
      rw [e]
      have : ε * (x - a) ≤ ε * (t - a) := by
        apply mul_le_mul_of_nonneg_left _ hε.le; linarith [hx.2]
      linarith
  linarith

/-- Staying in a set whose frontier has `g > c`, given that inside the set `g` cannot cross `c` upwards. -/
theorem stay_in_set {n : ℕ} {A : Set (Pt n)} {ξ : ℝ → Pt n} {g g' : ℝ → ℝ} {a b c : ℝ}
    (hξ : ContinuousOn ξ (Icc a b))
    (hd : ∀ t ∈ Icc a b, HasDerivWithinAt g (g' t) (Icc a b) t)
    (hA : ξ a ∈ A) (h0 : g a ≤ c)
    (hfr : ∀ t ∈ Icc a b, ξ t ∈ frontier A → c < g t)
    (hin : ∀ t ∈ Icc a b, ξ t ∈ A → g t = c → g' t < 0) :
    ∀ t ∈ Icc a b, ξ t ∈ A ∧ g t ≤ c := by
  have hall : ∀ t ∈ Icc a b, ξ t ∈ A := by
    intro t ht
    by_contra hc
    obtain ⟨τ, hτ, hf, hbef⟩ := exists_exit ht.1 (hξ.mono (Icc_subset_Icc_right ht.2)) hA hc
    have hd' := deriv_restrict hd le_rfl (hτ.2.trans ht.2)
    have := fence_le hd' h0 (fun s hs e => hin s ⟨hs.1, hs.2.le.trans (hτ.2.trans ht.2)⟩ (hbef s hs) e)
      τ ⟨hτ.1, le_rfl⟩
    exact absurd (hfr τ ⟨hτ.1, hτ.2.trans ht.2⟩ hf) (not_lt.2 this)
  intro t ht
  exact ⟨hall t ht, fence_le hd h0
    (fun s hs e => hin s (Ico_subset_Icc_self hs) (hall s (Ico_subset_Icc_self hs)) e) t ht⟩

end Fossil

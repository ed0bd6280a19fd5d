/-
Calculus with countably many exceptions, and the derivative of a network with ReLU units along a trajectory: the
symbolic derivative is the derivative of the certificate at all but countably many times.
-/
import Verif.Lemmas.Calc
import Verif.Lemmas.Pipeline
import Verif.Lemmas.Continuity
import Mathlib.Topology.Algebra.Module.Cardinality

namespace Fossil
open Spec Set Filter Topology

/-- `g` is continuous on `[a, b]` and has derivative `g'` there at all but countably many points. -/
structure OffC (g g' : ℝ → ℝ) (a b : ℝ) : Prop where
  cont : ContinuousOn g (Icc a b)
  der : ∃ E : Set ℝ, E.Countable ∧ ∀ t ∈ Icc a b, t ∉ E → HasDerivWithinAt g (g' t) (Icc a b) t

theorem OffC.restrict {g g' : ℝ → ℝ} {a b s t : ℝ} (h : OffC g g' a b) (hs : a ≤ s) (ht : t ≤ b) :
    OffC g g' s t := by
  obtain ⟨E, hE, hd⟩ := h.der
  exact ⟨h.cont.mono (Icc_subset_Icc hs ht), E, hE, fun r hr hrE =>
    (hd r ⟨hs.trans hr.1, hr.2.trans ht⟩ hrE).mono (Icc_subset_Icc hs ht)⟩

/-- At the left end of an interval on which `g` stays above its initial value the derivative is `≥ 0`. -/
theorem right_deriv_nonneg {g : ℝ → ℝ} {d a b : ℝ} (hab : a < b)
    (hd : HasDerivWithinAt g d (Icc a b) a) (hle : ∀ t ∈ Ioc a b, g a ≤ g t) : 0 ≤ d := by
  have h1 : HasDerivWithinAt g d (Ioc a b) a := hd.mono Ioc_subset_Icc_self
  rw [hasDerivWithinAt_iff_tendsto_slope' (by simp)] at h1
  haveI : (𝓝[Ioc a b] a).NeBot := by
    rw [nhdsWithin_Ioc_eq_nhdsGT hab]; infer_instance
  refine ge_of_tendsto h1 ?_
  filter_upwards [self_mem_nhdsWithin] with t ht
  rw [slope_def_field]
  exact div_nonneg (by linarith [hle t ht]) (by linarith [ht.1])

/-- Bounded derivative, countably many exceptions. -/
theorem OffC.rate_le {g g' : ℝ → ℝ} {a b k : ℝ} (h : OffC g g' a b) (hb : ∀ t ∈ Ico a b, g' t ≤ k) :
    ∀ t ∈ Icc a b, g t ≤ g a + k * (t - a) := by
  intro t ht
  by_contra hlt
  rw [not_le] at hlt
  obtain ⟨E, hE, hd⟩ := h.der
  have hat : a < t := by
    refine lt_of_le_of_ne ht.1 ?_
    rintro rfl; simp at hlt
  obtain ⟨ε, hε, hε2⟩ : ∃ ε > 0, g a + (k + ε) * (t - a) < g t := by
    refine ⟨(g t - g a - k * (t - a)) / (2 * (t - a)), div_pos (by linarith) (by linarith), ?_⟩
    have : (g t - g a - k * (t - a)) / (2 * (t - a)) * (t - a) = (g t - g a - k * (t - a)) / 2 := by
      have : t - a ≠ 0 := by linarith
      field_simp
    rw [add_mul, this]; linarith
  set φ : ℝ → ℝ := fun s => g s - (k + ε) * (s - a) with hφ
  have hφc : ContinuousOn φ (Icc a t) :=
    (h.cont.mono (Icc_subset_Icc_right ht.2)).sub (by fun_prop)
  have hφat : φ a < φ t := by simp only [hφ]; linarith
  -- a level that is not attained at an exceptional point
  obtain ⟨c, hcE, hc1, hc2⟩ := ((hE.image φ).dense_compl ℝ).exists_between hφat
  let S : Set ℝ := {s | s ∈ Icc a t ∧ φ s ≤ c}
  have hS : IsClosed S := hφc.preimage_isClosed_of_isClosed isClosed_Icc (isClosed_Iic (a := c))
  have hne : S.Nonempty := ⟨a, ⟨le_rfl, ht.1⟩, hc1.le⟩
  have hbd : BddAbove S := ⟨t, fun s hs => hs.1.2⟩
  have hm : sSup S ∈ S := hS.csSup_mem hne hbd
  set τ := sSup S with hτ
  have hτt : τ < t := by
    refine lt_of_le_of_ne hm.1.2 fun e => ?_
    have := hm.2
    rw [e] at this
    linarith
  have hafter : ∀ s ∈ Ioc τ t, c < φ s := by
    intro s hs
    by_contra hh
    have : s ≤ τ := le_csSup hbd ⟨⟨hm.1.1.trans hs.1.le, hs.2⟩, not_lt.1 hh⟩
    linarith [hs.1]
  have heq : φ τ = c := by
    refine le_antisymm hm.2 ?_
    have hcw : ContinuousWithinAt φ (Ioc τ t) τ :=
      (hφc τ hm.1).mono (Ioc_subset_Icc_self.trans (Icc_subset_Icc_left hm.1.1))
    haveI : (𝓝[Ioc τ t] τ).NeBot := by rw [nhdsWithin_Ioc_eq_nhdsGT hτt]; infer_instance
    refine ge_of_tendsto hcw ?_
    filter_upwards [self_mem_nhdsWithin] with s hs
    exact (hafter s hs).le
  have hτE : τ ∉ E := fun hh => hcE ⟨τ, hh, heq⟩
  have hτb : τ ∈ Icc a b := ⟨hm.1.1, hm.1.2.trans ht.2⟩
  have h1 : HasDerivWithinAt φ (g' τ - (k + ε)) (Icc τ t) τ := by
    have h2 := (hd τ hτb hτE).mono (Icc_subset_Icc hm.1.1 ht.2)
    have h3 : HasDerivWithinAt (fun s => (k + ε) * (s - a)) ((k + ε) * 1) (Icc τ t) τ :=
      ((hasDerivWithinAt_id τ _).sub_const a).const_mul _
    rw [mul_one] at h3
    exact h2.sub h3
  have h4 := right_deriv_nonneg hτt h1 (fun s hs => by rw [heq]; exact (hafter s hs).le)
  have := hb τ ⟨hm.1.1, hτt.trans_le ht.2⟩
  linarith

theorem OffC.antitone {g g' : ℝ → ℝ} {a b : ℝ} (h : OffC g g' a b) (hb : ∀ t ∈ Icc a b, g' t ≤ 0) :
    AntitoneOn g (Icc a b) := by
  intro s hs t ht hst
  have := (h.restrict hs.1 ht.2).rate_le (k := 0)
    (fun r hr => hb r ⟨hs.1.trans hr.1, hr.2.le.trans ht.2⟩) t ⟨hst, le_rfl⟩
  simpa using this

/-- Strictly negative derivative off a countable set: strictly decreasing. -/
theorem OffC.strictAnti {g g' : ℝ → ℝ} {a b : ℝ} (h : OffC g g' a b) (hb : ∀ t ∈ Icc a b, g' t < 0) :
    StrictAntiOn g (Icc a b) := by
  have hA := h.antitone fun t ht => (hb t ht).le
  intro s hs t ht hst
  refine lt_of_le_of_ne (hA hs ht hst.le) fun e => ?_
  obtain ⟨E, hE, hd⟩ := h.der
  obtain ⟨r, hrE, hr1, hr2⟩ := (hE.dense_compl ℝ).exists_between hst
  have hr : r ∈ Icc a b := ⟨hs.1.trans hr1.le, hr2.le.trans ht.2⟩
  have hconst : ∀ q ∈ Icc s t, g q = g s := fun q hq => by
    have hq' : q ∈ Icc a b := ⟨hs.1.trans hq.1, hq.2.trans ht.2⟩
    exact le_antisymm (hA hs hq' hq.1) (by rw [← e]; exact hA hq' ht hq.2)
  have h1 := (hd r hr hrE).mono (Icc_subset_Icc hr.1 ht.2)
  have := right_deriv_nonneg hr2 h1 (fun q hq => by
    rw [hconst r ⟨hr1.le, hr2.le⟩, hconst q ⟨hr1.le.trans hq.1.le, hq.2⟩])
  exact absurd (hb r hr) (not_lt.2 this)

/-- A continuous function that starts below `c` and is above `c` later attains `c` at a first time. -/
theorem first_hit {g : ℝ → ℝ} {a t c : ℝ} (hat : a ≤ t) (hc : ContinuousOn g (Icc a t)) (h0 : g a < c)
    (h1 : c ≤ g t) : ∃ τ ∈ Ioc a t, g τ = c ∧ ∀ s ∈ Ico a τ, g s < c := by
  let S : Set ℝ := {s | s ∈ Icc a t ∧ c ≤ g s}
  have hS : IsClosed S := hc.preimage_isClosed_of_isClosed isClosed_Icc (isClosed_Ici (a := c))
  have hne : S.Nonempty := ⟨t, ⟨hat, le_rfl⟩, h1⟩
  have hbd : BddBelow S := ⟨a, fun s hs => hs.1.1⟩
  have hm : sInf S ∈ S := hS.csInf_mem hne hbd
  set τ := sInf S with hτ
  have hbefore : ∀ s ∈ Ico a τ, g s < c := by
    intro s hs
    by_contra h
    have : τ ≤ s := csInf_le hbd ⟨⟨hs.1, hs.2.le.trans hm.1.2⟩, not_lt.1 h⟩
    exact absurd hs.2 (not_lt.2 this)
  have haτ : a < τ := by
    refine lt_of_le_of_ne hm.1.1 fun e => ?_
    have := hm.2
    rw [← e] at this
    exact absurd h0 (not_lt.2 this)
  refine ⟨τ, ⟨haτ, hm.1.2⟩, le_antisymm ?_ hm.2, hbefore⟩
  have hcw : ContinuousWithinAt g (Ico a τ) τ :=
    (hc τ hm.1).mono (Ico_subset_Icc_self.trans (Icc_subset_Icc_right hm.1.2))
  haveI : (𝓝[Ico a τ] τ).NeBot := by rw [nhdsWithin_Ico_eq_nhdsLT haτ]; infer_instance
  refine le_of_tendsto hcw ?_
  filter_upwards [self_mem_nhdsWithin] with s hs
  exact (hbefore s hs).le

/-- A function below `c` at the start, non-increasing wherever it is below `c`, never rises. -/
theorem OffC.sublevel {g g' : ℝ → ℝ} {a b c k : ℝ} (h : OffC g g' a b) (hk : k ≤ 0) (h0 : g a < c)
    (hb : ∀ t ∈ Ico a b, g t < c → g' t ≤ k) : ∀ t ∈ Icc a b, g t ≤ g a + k * (t - a) := by
  have hall : ∀ t ∈ Icc a b, g t < c := by
    intro t ht
    by_contra hc
    obtain ⟨τ, hτ, he, hbef⟩ := first_hit ht.1 (h.cont.mono (Icc_subset_Icc_right ht.2)) h0 (not_lt.1 hc)
    have := (h.restrict le_rfl (hτ.2.trans ht.2)).rate_le (k := k)
      (fun r hr => hb r ⟨hr.1, hr.2.trans_le (hτ.2.trans ht.2)⟩ (hbef r hr)) τ ⟨hτ.1.le, le_rfl⟩
    have : k * (τ - a) ≤ 0 := mul_nonpos_of_nonpos_of_nonneg hk (by linarith [hτ.1])
    linarith
  exact h.rate_le fun t ht => hb t ht (hall t (Ico_subset_Icc_self ht))

/-- A function that starts at or below `b` and does not rise between the levels `b` and `c > b` stays at or below `b`. -/
theorem OffC.fence {g g' : ℝ → ℝ} {a d b c : ℝ} (h : OffC g g' a d) (hbc : b < c) (h0 : g a ≤ b)
    (hb : ∀ t ∈ Ico a d, b ≤ g t → g t < c → g' t ≤ 0) : ∀ t ∈ Icc a d, g t ≤ b := by
  intro t ht
  by_contra hlt
  rw [not_le] at hlt
  have hcont := h.cont.mono (Icc_subset_Icc_right ht.2)
  let S : Set ℝ := {s | s ∈ Icc a t ∧ g s ≤ b}
  have hS : IsClosed S := hcont.preimage_isClosed_of_isClosed isClosed_Icc (isClosed_Iic (a := b))
  have hbd : BddAbove S := ⟨t, fun s hs => hs.1.2⟩
  have hm : sSup S ∈ S := hS.csSup_mem ⟨a, ⟨le_rfl, ht.1⟩, h0⟩ hbd
  set σ := sSup S with hσ
  have hσt : σ < t := by
    refine lt_of_le_of_ne hm.1.2 fun e => ?_
    have := hm.2
    rw [e] at this
    linarith
  have hafter : ∀ s ∈ Ioc σ t, b < g s := by
    intro s hs
    by_contra hh
    have : s ≤ σ := le_csSup hbd ⟨⟨hm.1.1.trans hs.1.le, hs.2⟩, not_lt.1 hh⟩
    linarith [hs.1]
  have heq : b ≤ g σ := by
    have hcw : ContinuousWithinAt g (Ioc σ t) σ :=
      (hcont σ hm.1).mono (Ioc_subset_Icc_self.trans (Icc_subset_Icc_left hm.1.1))
    haveI : (𝓝[Ioc σ t] σ).NeBot := by rw [nhdsWithin_Ioc_eq_nhdsGT hσt]; infer_instance
    refine ge_of_tendsto hcw ?_
    filter_upwards [self_mem_nhdsWithin] with s hs
    exact (hafter s hs).le
  have := (h.restrict hm.1.1 ht.2).sublevel (k := 0) le_rfl (lt_of_le_of_lt hm.2 hbc) (fun r hr hr' => by
    refine hb r ⟨hm.1.1.trans hr.1, hr.2.trans_le ht.2⟩ ?_ hr'
    rcases eq_or_lt_of_le hr.1 with e | e
    · rw [← e]; exact heq
    · exact (hafter r ⟨e, hr.2.le⟩).le) t ⟨hσt.le, le_rfl⟩
  have := hm.2
  linarith

/-- Staying in a set whose frontier lies above the level `c`. -/
theorem OffC.stay {n : ℕ} {A : Set (Pt n)} {ξ : ℝ → Pt n} {g g' : ℝ → ℝ} {a d b c : ℝ}
    (hξ : ContinuousOn ξ (Icc a d)) (h : OffC g g' a d) (hA : ξ a ∈ A) (hbc : b < c) (h0 : g a ≤ b)
    (hfr : ∀ t ∈ Icc a d, ξ t ∈ frontier A → c ≤ g t)
    (hin : ∀ t ∈ Icc a d, ξ t ∈ A → b ≤ g t → g t < c → g' t ≤ 0) :
    ∀ t ∈ Icc a d, ξ t ∈ A ∧ g t ≤ b := by
  have hall : ∀ t ∈ Icc a d, ξ t ∈ A := by
    intro t ht
    by_contra hc
    obtain ⟨τ, hτ, hf, hbef⟩ := exists_exit ht.1 (hξ.mono (Icc_subset_Icc_right ht.2)) hA hc
    have := (h.restrict le_rfl (hτ.2.trans ht.2)).fence hbc h0 (fun s hs =>
      hin s ⟨hs.1, hs.2.le.trans (hτ.2.trans ht.2)⟩ (hbef s hs)) τ ⟨hτ.1, le_rfl⟩
    have := hfr τ ⟨hτ.1, hτ.2.trans ht.2⟩ hf
    linarith
  exact fun t ht => ⟨hall t ht, h.fence hbc h0 (fun s hs => hin s (Ico_subset_Icc_self hs)
    (hall s (Ico_subset_Icc_self hs))) t ht⟩

/-- Staying in a set whose frontier lies above the level `b`, when the function does not rise at or above `b` inside. -/
theorem OffC.stay_above {n : ℕ} {A : Set (Pt n)} {ξ : ℝ → Pt n} {g g' : ℝ → ℝ} {a d b : ℝ}
    (hξ : ContinuousOn ξ (Icc a d)) (h : OffC g g' a d) (hA : ξ a ∈ A) (h0 : g a ≤ b)
    (hfr : ∀ t ∈ Icc a d, ξ t ∈ frontier A → b < g t)
    (hin : ∀ t ∈ Icc a d, ξ t ∈ A → b ≤ g t → g' t ≤ 0) :
    ∀ t ∈ Icc a d, ξ t ∈ A ∧ g t ≤ b := by
  have hall : ∀ t ∈ Icc a d, ξ t ∈ A := by
    intro t ht
    by_contra hc
    obtain ⟨τ, hτ, hf, hbef⟩ := exists_exit ht.1 (hξ.mono (Icc_subset_Icc_right ht.2)) hA hc
    have := (h.restrict le_rfl (hτ.2.trans ht.2)).fence (lt_add_one b) h0 (fun s hs h1 _ =>
      hin s ⟨hs.1, hs.2.le.trans (hτ.2.trans ht.2)⟩ (hbef s hs) h1) τ ⟨hτ.1, le_rfl⟩
    have := hfr τ ⟨hτ.1, hτ.2.trans ht.2⟩ hf
    linarith
  exact fun t ht => ⟨hall t ht, h.fence (lt_add_one b) h0 (fun s hs h1 _ => hin s (Ico_subset_Icc_self hs)
    (hall s (Ico_subset_Icc_self hs)) h1) t ht⟩

/-- Reach-while-stay with countably many exceptions: the value becomes strictly negative at once. -/
theorem OffC.reach {n : ℕ} {A G : Set (Pt n)} {ξ : ℝ → Pt n} {g g' : ℝ → ℝ} {T γ : ℝ} (hγ : 0 < γ)
    (hξ : ContinuousOn ξ (Icc 0 T)) (h : OffC g g' 0 T)
    (hA : ξ 0 ∈ A) (h0 : ∃ s₀ ≥ 0, (∀ t ∈ Icc 0 s₀, t ≤ T → g t ≤ 0) ∧ (s₀ ≤ T → g s₀ < 0))
    (hfr : ∀ t ∈ Icc 0 T, ξ t ∈ frontier A → 0 < g t)
    (hin : ∀ t ∈ Icc 0 T, ξ t ∈ A → ξ t ∉ G → g t ≤ 0 → g' t ≤ -γ) :
    ∀ t ∈ Icc 0 T, (∀ r ∈ Icc 0 t, ξ r ∉ G) → ξ t ∈ A ∧ g t ≤ g 0 - γ * t := by
  obtain ⟨s₀, hs₀, hle, hlt⟩ := h0
  intro t ht hno
  have hg0 : g 0 ≤ 0 := hle 0 ⟨le_rfl, hs₀⟩ (ht.1.trans ht.2)
  have key : ∀ τ ∈ Icc 0 t, (∀ r ∈ Ico 0 τ, ξ r ∈ A) → g τ ≤ g 0 - γ * τ := by
    intro τ hτ hA'
    have rate : ∀ σ ∈ Icc 0 τ, (∀ r ∈ Ico 0 σ, g r ≤ 0) → g σ ≤ g 0 - γ * σ := by
      intro σ hσ hneg
      have := (h.restrict le_rfl (hσ.2.trans (hτ.2.trans ht.2))).rate_le (k := -γ)
        (fun r hr => hin r ⟨hr.1, hr.2.le.trans (hσ.2.trans (hτ.2.trans ht.2))⟩ (hA' r ⟨hr.1, hr.2.trans_le hσ.2⟩)
          (hno r ⟨hr.1, hr.2.le.trans (hσ.2.trans hτ.2)⟩) (hneg r hr)) σ ⟨hσ.1, le_rfl⟩
      linarith
    refine rate τ ⟨hτ.1, le_rfl⟩ fun s hs => ?_
    by_contra hc
    rw [not_le] at hc
    have hsT : s ≤ T := hs.2.le.trans (hτ.2.trans ht.2)
    have hss : s₀ < s := by
      by_contra hh
      have := hle s ⟨hs.1, not_lt.1 hh⟩ hsT
      linarith
    obtain ⟨σ, hσ, he, hbef⟩ := first_hit hss.le (h.cont.mono (Icc_subset_Icc hs₀ hsT)) (hlt (hss.le.trans hsT)) hc.le
    have h5 := rate σ ⟨hs₀.trans hσ.1.le, hσ.2.trans hs.2.le⟩ fun r hr => by
      rcases le_total r s₀ with h6 | h6
      · exact hle r ⟨hr.1, h6⟩ (hr.2.le.trans (hσ.2.trans hsT))
      · exact (hbef r ⟨h6, hr.2⟩).le
    have : γ * σ > 0 := mul_pos hγ (lt_of_le_of_lt hs₀ hσ.1)
    linarith
  have hall : ∀ τ ∈ Icc 0 t, ξ τ ∈ A := by
    intro τ hτ
    by_contra hc
    obtain ⟨σ, hσ, hf, hbef⟩ := exists_exit hτ.1 (hξ.mono (Icc_subset_Icc_right (hτ.2.trans ht.2))) hA hc
    have := key σ ⟨hσ.1, hσ.2.trans hτ.2⟩ hbef
    have h5 := hfr σ ⟨hσ.1, hσ.2.trans (hτ.2.trans ht.2)⟩ hf
    have : 0 ≤ γ * σ := mul_nonneg hγ.le hσ.1
    linarith
  exact ⟨hall t ⟨ht.1, le_rfl⟩, key t ⟨ht.1, le_rfl⟩ fun r hr => hall r ⟨hr.1, hr.2.le⟩⟩

/-- A function that starts at or below 0 with a negative derivative is negative right after. -/
theorem starts_down {g : ℝ → ℝ} {T d : ℝ} (h0 : g 0 ≤ 0) (hT : 0 < T) (hd : HasDerivWithinAt g d (Icc 0 T) 0) (hd0 : d < 0) :
    ∃ s₀ ≥ 0, (∀ t ∈ Icc 0 s₀, t ≤ T → g t ≤ 0) ∧ (s₀ ≤ T → g s₀ < 0) := by
  have h1 : HasDerivWithinAt g d (Ioc 0 T) 0 := hd.mono Ioc_subset_Icc_self
  rw [hasDerivWithinAt_iff_tendsto_slope' (by simp), nhdsWithin_Ioc_eq_nhdsGT hT] at h1
  have h2 : ∀ᶠ z in 𝓝[>] (0:ℝ), slope g 0 z < 0 := h1.eventually_lt_const hd0
  obtain ⟨u, hu, hsub⟩ := mem_nhdsGT_iff_exists_Ioc_subset.1 h2
  have hu0 : (0:ℝ) < u := hu
  have key : ∀ t ∈ Ioc 0 u, g t < 0 := by
    intro t ht
    have h3 : slope g 0 t < 0 := hsub ht
    rw [slope_def_field, sub_zero] at h3
    have := (div_neg_iff.1 h3).resolve_left (by intro hh; linarith [hh.2, ht.1])
    linarith [this.1]
  refine ⟨u, hu0.le, fun t ht _ => ?_, fun _ => key u ⟨hu0, le_rfl⟩⟩
  rcases eq_or_lt_of_le ht.1 with e | e
  · rw [← e]; exact h0
  · exact (key t ⟨e, ht.2⟩).le

/-! ### the network -/

/-- Zeros with non-zero derivative are countably many. -/
theorem countable_crossings (u : ℝ → ℝ) (s : Set ℝ) :
    {t | t ∈ s ∧ u t = 0 ∧ ∃ d, d ≠ 0 ∧ HasDerivWithinAt u d s t}.Countable := by
  set Z := {t | t ∈ s ∧ u t = 0 ∧ ∃ d, d ≠ 0 ∧ HasDerivWithinAt u d s t} with hZ
  refine (countable_setOfPred_isolated_right_within (s := Z)).mono ?_
  intro t ht
  refine And.intro ht ?_
  obtain ⟨hts, h0, d, hd0, hd⟩ := ht
  have hev : ∀ᶠ z in 𝓝[s \ {t}] t, u z ≠ 0 := by
    have h1 := hasDerivWithinAt_iff_tendsto_slope.1 hd
    have h2 : ∀ᶠ z in 𝓝[s \ {t}] t, slope u t z ≠ 0 := h1.eventually_ne hd0
    filter_upwards [h2] with z hz hz0
    apply hz
    rw [slope_def_field, hz0, h0]; simp
  have hle : 𝓝[Z ∩ Ioi t] t ≤ 𝓝[s \ {t}] t :=
    nhdsWithin_mono _ fun z hz => ⟨hz.1.1, ne_of_gt hz.2⟩
  have h3 : ∀ᶠ z in 𝓝[Z ∩ Ioi t] t, False := by
    filter_upwards [hle hev, self_mem_nhdsWithin] with z hz1 hz2
    exact hz1 hz2.1.2.1
  exact eventually_false_iff_eq_bot.1 h3

section
variable {n : ℕ} {v : ℕ → ℝ} {e : ℝ → Env} {s : Set ℝ} {t : ℝ}

/-- The derivative of an activation layer also where a ReLU unit is at its kink, provided its input is stationary. -/
theorem track_act_kink {lib : Lib} {a : Act} {zs ys ds : List Term} {J : List (List Term)}
    (h : List.Forall₂ (Track n v e s t) zs J) (h1 : a.forwardSym lib zs = .ok ys)
    (h2 : a.derivativeSym lib zs = .ok ds)
    (hk : a = .relu → ∀ z row, (z, row) ∈ List.zip zs J → z.eval (e t) ≠ 0 ∨ rowD n v (e t) row = 0) :
    List.Forall₂ (Track n v e s t) ys (diagJac ds J) := by
  obtain ⟨F, rfl, hF⟩ := Act.forwardSym_spec h1
  obtain ⟨D, rfl, hD⟩ := Act.derivativeSym_spec h2
  rw [List.forall₂_iff_get] at h ⊢
  obtain ⟨hl, ht⟩ := h
  refine ⟨by simp [diagJac, hl], ?_⟩
  intro i hi1 hi2
  simp only [List.length_mapIdx] at hi1
  have hT := ht i hi1 (hl ▸ hi1)
  simp only [List.get_eq_getElem, diagJac, List.getElem_mapIdx, List.getElem_zipWith] at hT ⊢
  unfold Track at hT ⊢
  have e1 : (fun τ => (F i zs[i]).eval (e τ)) = (a.scal zs.length i) ∘ (fun τ => zs[i].eval (e τ)) := by
    funext τ; exact hF i _ _
  have e2 : rowD n v (e t) ((J[i]'(hl ▸ hi1)).map (Term.mul (D i zs[i])))
      = (D i zs[i]).eval (e t) * rowD n v (e t) (J[i]'(hl ▸ hi1)) := by
    unfold rowD
    rw [Finset.mul_sum]
    apply Finset.sum_congr rfl
    intro j _
    have : (((J[i]'(hl ▸ hi1)).map (Term.mul (D i zs[i]))).getD j (.const 0)).eval (e t)
        = (D i zs[i]).eval (e t) * (((J[i]'(hl ▸ hi1))).getD j (.const 0)).eval (e t) := by
      simp only [List.getD_eq_getElem?_getD, List.getElem?_map]
      cases (J[i]'(hl ▸ hi1))[j]? <;> simp [Term.eval]
    rw [this]; ring
  rw [e1, e2]
  by_cases hne : a = .relu → (zs[i]).eval (e t) ≠ 0
  · exact (hD i zs[i] (e t) hne).comp_hasDerivWithinAt t hT
  · push Not at hne
    obtain ⟨ha, h0⟩ := hne
    have hr : rowD n v (e t) (J[i]'(hl ▸ hi1)) = 0 := by
      refine (hk ha zs[i] (J[i]'(hl ▸ hi1)) ?_).resolve_left (by simp [h0])
      rw [List.mem_iff_getElem]
      exact ⟨i, by simp [hi1, ← hl], by simp⟩
    rw [hr] at hT
    rw [hr, mul_zero, ha]
    -- `max u 0` with `u = 0`, `u' = 0`
    rw [hasDerivWithinAt_iff_isLittleO] at hT ⊢
    simp only [smul_zero, sub_zero, h0] at hT
    simp only [smul_zero, sub_zero, Function.comp, h0]
    refine Asymptotics.IsBigO.trans_isLittleO (Asymptotics.IsBigO.of_bound 1 ?_) hT
    filter_upwards with τ
    simp only [Act.scal, Real.norm_eq_abs, one_mul]
    generalize (zs[i]).eval (e τ) = u
    rcases le_total u 0 with hu | hu
    · simp [max_eq_right hu]
    · simp [max_eq_left hu]

end

/-- Rows are derivatives along the curve at all but countably many times. -/
def OffTrack (n : ℕ) (v : ℝ → ℕ → ℝ) (e : ℝ → Env) (s : Set ℝ) (z : List Term) (J : List (List Term)) : Prop :=
  ∃ E : Set ℝ, E.Countable ∧ ∀ t ∈ s, t ∉ E → List.Forall₂ (Track n (v t) e s t) z J

theorem off_act {n : ℕ} {v : ℝ → ℕ → ℝ} {e : ℝ → Env} {s : Set ℝ} {lib : Lib} {a : Act} {zs ys ds : List Term}
    {J : List (List Term)} (h : OffTrack n v e s zs J) (h1 : a.forwardSym lib zs = .ok ys)
    (h2 : a.derivativeSym lib zs = .ok ds) : OffTrack n v e s ys (diagJac ds J) := by
  obtain ⟨E, hE, hT⟩ := h
  refine ⟨E ∪ ⋃ z ∈ {z | z ∈ zs}, {t | t ∈ s ∧ z.eval (e t) = 0 ∧
      ∃ d, d ≠ 0 ∧ HasDerivWithinAt (fun τ => z.eval (e τ)) d s t}, ?_, fun t ht htE => ?_⟩
  · exact hE.union ((List.finite_toSet zs).countable.biUnion fun z _ => countable_crossings _ _)
  · rw [Set.mem_union, not_or] at htE
    refine track_act_kink (hT t ht htE.1) h1 h2 fun _ z row hzr => ?_
    by_contra hc
    push Not at hc
    refine htE.2 ?_
    have htr := List.forall₂_iff_zip.1 (hT t ht htE.1)
    exact Set.mem_biUnion (show z ∈ {z | z ∈ zs} from (List.of_mem_zip hzr).1)
      ⟨ht, hc.1, _, hc.2, htr.2 hzr⟩

theorem off_untilLast {lib : Lib} {rnd : ℤ} {n : ℕ} {v : ℝ → ℕ → ℝ} {e : ℝ → Env} {s : Set ℝ} {ls : List Layer} :
    ∀ {as : List Act} {z : List Term} {J} {z' : List Term} {J'},
    untilLastCT lib rnd n ls as z J = .ok (z', J') → OffTrack n v e s z J → OffTrack n v e s z' J' := by
  induction ls with
  | nil =>
    intro as z J z' J' h hT
    cases as <;> · simp [untilLastCT] at h; obtain ⟨rfl, rfl⟩ := h; exact hT
  | cons l ls ih =>
    intro as z J z' J' h hT
    cases as with
    | nil => simp [untilLastCT] at h
    | cons a as =>
      simp only [untilLastCT, Bind.bind, Except.bind] at h
      split at h
      · cases h
      rename_i zw h1
      split at h
      · cases h
      rename_i zhat h2
      split at h
      · cases h
      rename_i y h3
      split at h
      · cases h
      rename_i J1 h4
      split at h
      · cases h
      rename_i d h5
      obtain ⟨E, hE, hT⟩ := hT
      exact ih h (off_act ⟨E, hE, fun t ht htE => track_addBias (track_matVec (hT t ht htE) h1 h4) h2⟩ h3 h5)

/-- Along a trajectory the certificate is continuous and, at all but countably many times, differentiable with the
Lie-derivative formula as rate: for any activations. -/
theorem traj_off {lib rnd quad} {net : Net} {n : ℕ} {f : List Term} {V Vdot : Term}
    (h : translateCT lib rnd none quad net (vars n) f = .ok (V, Vdot)) (hn : net.inputSize = n)
    {T : ℝ} {ξ : ℝ → Pt n} (hξ : Trajectory (field n f) T ξ) :
    OffC (fun τ => certValue rnd quad net (ξ τ)) (fun t => Vdot.eval (ξ t).env) 0 T := by
  refine ⟨(continuous_certValue n rnd quad net).comp_continuousOn (traj_cont hξ), ?_⟩
  have h1 : ∃ z J, untilLastCT lib rnd n net.layers.dropLast net.acts (vars n) (eyeJac n) = .ok (z, J) := by
    obtain ⟨last, z, J, _, _, _, h1, _⟩ := translateCT_inv h
    rw [hn] at h1
    exact ⟨z, J, h1⟩
  obtain ⟨z, J, h1⟩ := h1
  obtain ⟨E, hE, hT⟩ := off_untilLast (v := fun t j => (f.getD j (.const 0)).eval (ξ t).env)
    (e := fun τ => (ξ τ).env) (s := Icc 0 T) h1 ⟨∅, countable_empty, fun t ht _ => track_vars (hξ t ht)⟩
  refine ⟨E, hE, fun t ht htE => ?_⟩
  have := lie_core lib rnd quad net n f V Vdot h hn (ξ t) ξ (Icc 0 T) t rfl (hξ t ht) fun z' J' h1' => by
    rw [h1] at h1'
    obtain ⟨rfl, rfl⟩ := Prod.mk.inj (Except.ok.inj h1')
    exact hT t ht htE
  simpa only [certValue_eq h] using this

end Fossil

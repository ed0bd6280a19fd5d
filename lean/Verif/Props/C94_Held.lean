/-
C94: digital controllers: sampling, delays, and inaccurate sensors and actuators. The certificates of C92 and C93 leave room for them.
-/
import Verif.Props.C93_MarginMore

namespace Fossil
open Spec Set Filter Topology

variable {R K : Type} {n m : ℕ}

namespace Spec

/-- The system `F` driven by a digital implementation of the controller `k`: at each time `t` the input differs by at most `h` in each component from the output of `k` on a measured
state, which differs by at most `h` in each component from the state at some time `s` of `[t - h, t]` (never before the start). So the controller may be sampled and its output held, with a
period of at most `h`, regular or not: `s` is the last sampling instant; it may be delayed, and its sensors and actuators may be inaccurate. Where the input jumps only the derivative to
the right exists. -/
def Held (F : Pt n → Pt m → Pt n) (k : Pt n → Pt m) (h T : ℝ) (ξ : ℝ → Pt n) : Prop :=
  ContinuousOn ξ (Icc 0 T) ∧ ∀ t ∈ Ico 0 T, ∃ s ∈ Icc 0 t, t - s ≤ h ∧ ∃ q : Pt n, (∀ i, |q i - ξ s i| ≤ h) ∧ ∃ u : Pt m, (∀ i, |u i - k q i| ≤ h) ∧
    HasDerivWithinAt ξ (F (ξ t) u) (Ici t) t

/-- What a verified region of attraction means for a digital controller: as `TolerantRegion`. -/
structure HeldRegion (F : Pt n → Pt m → Pt n) (k : Pt n → Pt m) (V : Pt n → ℝ) (level : ℝ) (I : Set (Pt n)) : Prop where
  covers : ∀ p ∈ I, V p ≤ level
  settles : ∀ A : Set (Pt n), IsCompact A → ∀ b : ℝ, b ≤ level → (∀ p ∈ A, normSq p ≤ (1/100)^2 → V p < b) → (∀ p ∈ frontier A, level < V p) →
    ∃ h > 0, ∃ τ : ℝ, ∀ (T : ℝ) (ξ : ℝ → Pt n), Held F k h T ξ → ξ 0 ∈ A → V (ξ 0) ≤ level →
      ∀ t ∈ Icc 0 T, ξ t ∈ A ∧ V (ξ t) ≤ level ∧ (τ ≤ t → V (ξ t) ≤ b)

/-- What a Lyapunov certificate `V` verified on `D` means for a digital controller: as `ToleratesOn`. -/
structure HeldOn (F : Pt n → Pt m → Pt n) (k : Pt n → Pt m) (V : Pt n → ℝ) (D : Set (Pt n)) : Prop where
  descends : ∀ C : Set (Pt n), IsCompact C → (∀ p ∈ C, p ∈ D ∧ p ≠ 0) → ∃ h > 0, ∃ δ > 0, ∀ (T : ℝ) (ξ : ℝ → Pt n), Held F k h T ξ →
    (∀ t ∈ Icc 0 T, ξ t ∈ C) → ∀ s t, 0 ≤ s → s ≤ t → t ≤ T → V (ξ t) ≤ V (ξ s) - δ * (t - s)
  settles : ∀ A H : Set (Pt n), IsCompact A → (∀ p ∈ A, p ∉ H → p ∈ D ∧ p ≠ 0) → ∀ b c l : ℝ, b ≤ c → c < l → (∀ p ∈ A, p ∈ H → V p < b) →
    (∀ p ∈ frontier A, l ≤ V p) → ∃ h > 0, ∃ τ : ℝ, ∀ (T : ℝ) (ξ : ℝ → Pt n), Held F k h T ξ → ξ 0 ∈ A → V (ξ 0) ≤ c →
      ∀ t ∈ Icc 0 T, ξ t ∈ A ∧ V (ξ t) ≤ c ∧ (τ ≤ t → V (ξ t) ≤ b)

end Spec

theorem held_restrict {F : Pt n → Pt m → Pt n} {k : Pt n → Pt m} {h T T' : ℝ} {ξ : ℝ → Pt n} (hξ : Held F k h T ξ) (hT : T' ≤ T) : Held F k h T' ξ :=
  ⟨hξ.1.mono (Icc_subset_Icc_right hT), fun t ht => hξ.2 t ⟨ht.1, ht.2.trans_le hT⟩⟩

/-- Inside a compact set reading late and inaccurately is a small error. -/
theorem held_disturbed {F : Pt n → Pt m → Pt n} {k : Pt n → Pt m} (hF : Continuous (fun z : Pt n × Pt m => F z.1 z.2)) (hk : Continuous k) {A : Set (Pt n)} (hA : IsCompact A)
    {ε : ℝ} (hε : 0 < ε) : ∃ h > 0, ∀ (T : ℝ) (ξ : ℝ → Pt n), Held F k h T ξ → (∀ t ∈ Icc 0 T, ξ t ∈ A) → Disturbed (fun p => F p (k p)) ε T ξ := by
  have hA1 : IsCompact (Metric.cthickening 1 A) := Metric.isCompact_of_isClosed_isBounded Metric.isClosed_cthickening hA.isBounded.cthickening
  have hU1 : IsCompact (Metric.cthickening 1 (k '' Metric.cthickening 1 A)) :=
    Metric.isCompact_of_isClosed_isBounded Metric.isClosed_cthickening (hA1.image hk).isBounded.cthickening
  have hAU := hA.prod hU1
  obtain ⟨M, hM⟩ := (hAU.image hF).isBounded.exists_norm_le
  have hM' : ∀ p ∈ A, ∀ u ∈ Metric.cthickening 1 (k '' Metric.cthickening 1 A), ‖F p u‖ ≤ max M 1 := fun p hp u hu => (hM _ ⟨(p, u), ⟨hp, hu⟩, rfl⟩).trans (le_max_left _ _)
  have hM0 : 0 < max M 1 := lt_max_of_lt_right one_pos
  obtain ⟨δ, hδ, hu⟩ := Metric.uniformContinuousOn_iff.1 (hAU.uniformContinuousOn_of_continuous hF.continuousOn) ε hε
  obtain ⟨δ', hδ', hk'⟩ := Metric.uniformContinuousOn_iff.1 (hA1.uniformContinuousOn_of_continuous hk.continuousOn) (δ / 2) (half_pos hδ)
  refine ⟨min 1 (min (δ / 3) (δ' / (2 * (1 + max M 1)))), by positivity, fun T ξ hξ hin => ⟨hξ.1, fun t ht => ?_⟩⟩
  generalize hh : min 1 (min (δ / 3) (δ' / (2 * (1 + max M 1)))) = h at hξ
  have hh1 : h ≤ 1 := hh ▸ min_le_left _ _
  have hh2 : h ≤ δ / 3 := hh ▸ (min_le_right _ _).trans (min_le_left _ _)
  have hh3 : h ≤ δ' / (2 * (1 + max M 1)) := hh ▸ (min_le_right _ _).trans (min_le_right _ _)
  have hh0 : 0 ≤ h := hh ▸ by positivity
  -- measured states and inputs are in the compact sets
  have hmem : ∀ {s : ℝ} {q : Pt n} {u : Pt m}, s ∈ Icc 0 T → (∀ i, |q i - ξ s i| ≤ h) → (∀ i, |u i - k q i| ≤ h) →
      dist q (ξ s) ≤ h ∧ dist u (k q) ≤ h ∧ q ∈ Metric.cthickening 1 A ∧ u ∈ Metric.cthickening 1 (k '' Metric.cthickening 1 A) := by
    intro s q u hs hq hu
    have h1 : dist q (ξ s) ≤ h := (dist_pi_le_iff hh0).2 fun i => by rw [Real.dist_eq]; exact hq i
    have h2 : dist u (k q) ≤ h := (dist_pi_le_iff hh0).2 fun i => by rw [Real.dist_eq]; exact hu i
    have h3 : q ∈ Metric.cthickening 1 A := Metric.mem_cthickening_of_dist_le q (ξ s) 1 A (hin s hs) (h1.trans hh1)
    exact ⟨h1, h2, h3, Metric.mem_cthickening_of_dist_le u (k q) 1 _ ⟨q, h3, rfl⟩ (h2.trans hh1)⟩
  obtain ⟨s, hs, hst, q, hq, u, hqu, hd⟩ := hξ.2 t ht
  refine ⟨_, hd, fun i => ?_⟩
  have hsT : Icc s t ⊆ Icc 0 T := Icc_subset_Icc hs.1 ht.2.le
  have hder : ∀ r ∈ Ico 0 T, ∃ v, HasDerivWithinAt ξ v (Ici r) r ∧ ‖v‖ ≤ max M 1 := fun r hr => by
    obtain ⟨s', hs', -, q', hq', u', hu', hd'⟩ := hξ.2 r hr
    exact ⟨_, hd', hM' _ (hin r (Ico_subset_Icc_self hr)) _ (hmem ⟨hs'.1, hs'.2.trans hr.2.le⟩ hq' hu').2.2.2⟩
  choose! v hv hvM using hder
  have hmove := norm_image_sub_le_of_norm_deriv_right_le_segment (f' := v) (C := max M 1) (hξ.1.mono hsT)
    (fun r hr => hv r ⟨hs.1.trans hr.1, hr.2.trans ht.2⟩) (fun r hr => hvM r ⟨hs.1.trans hr.1, hr.2.trans ht.2⟩) t ⟨hs.2, le_rfl⟩
  obtain ⟨m1, m2, m3, m4⟩ := hmem ⟨hs.1, hs.2.trans ht.2.le⟩ hq hqu
  have htA : ξ t ∈ A := hin t (Ico_subset_Icc_self ht)
  have htA1 : ξ t ∈ Metric.cthickening 1 A := Metric.self_subset_cthickening A htA
  have hqt : dist q (ξ t) < δ' := by
    have h1 : dist (ξ s) (ξ t) ≤ max M 1 * h := by
      rw [dist_comm, dist_eq_norm]
      exact hmove.trans (mul_le_mul_of_nonneg_left hst hM0.le)
    calc dist q (ξ t) ≤ dist q (ξ s) + dist (ξ s) (ξ t) := dist_triangle _ _ _
      _ ≤ (1 + max M 1) * h := by linarith
      _ ≤ (1 + max M 1) * (δ' / (2 * (1 + max M 1))) := mul_le_mul_of_nonneg_left hh3 (by positivity)
      _ = δ' / 2 := by field_simp
      _ < δ' := by linarith
  have hut : dist u (k (ξ t)) < δ := by
    have := hk' q m3 (ξ t) htA1 hqt
    linarith [dist_triangle u (k q) (k (ξ t))]
  have hclose : dist (ξ t, u) (ξ t, k (ξ t)) < δ := by
    rw [Prod.dist_eq, dist_self, max_eq_right dist_nonneg]
    exact hut
  have h1 := hu (ξ t, u) ⟨htA, m4⟩ (ξ t, k (ξ t)) ⟨htA, Metric.self_subset_cthickening _ ⟨_, htA1, rfl⟩⟩ hclose
  rw [dist_eq_norm] at h1
  have h2 := norm_le_pi_norm (F (ξ t) u - F (ξ t) (k (ξ t))) i
  rw [Real.norm_eq_abs, Pi.sub_apply] at h2
  exact h2.trans h1.le

/-- A curve that starts in a bounded set and leaves every compact set around it must have left the set before. -/
theorem held_confined {F : Pt n → Pt m → Pt n} {k : Pt n → Pt m} (hF : Continuous (fun z : Pt n × Pt m => F z.1 z.2)) (hk : Continuous k) {S : Set (Pt n)} (hS : Bornology.IsBounded S)
    {ε : ℝ} (hε : 0 < ε) : ∃ h > 0, ∀ (T : ℝ) (ξ : ℝ → Pt n), Held F k h T ξ → ξ 0 ∈ S →
      (∀ t ∈ Icc 0 T, Disturbed (fun p => F p (k p)) ε t ξ → ξ t ∈ S) → Disturbed (fun p => F p (k p)) ε T ξ := by
  have hA : IsCompact (Metric.cthickening 1 S) := Metric.isCompact_of_isClosed_isBounded Metric.isClosed_cthickening hS.cthickening
  obtain ⟨h, hh, key⟩ := held_disturbed hF hk hA hε
  refine ⟨h, hh, fun T ξ hξ h0 hst => key T ξ hξ fun t ht => ?_⟩
  by_contra hout
  obtain ⟨r, hr, hfr, hbef⟩ := exists_exit ht.1 (hξ.1.mono (Icc_subset_Icc_right ht.2)) (Metric.self_subset_cthickening S h0) hout
  have hrT : r ≤ T := hr.2.trans ht.2
  have hin : ξ r ∈ S := hst r ⟨hr.1, hrT⟩ (key r ξ (held_restrict hξ hrT) fun q hq => by
    rcases hq.2.eq_or_lt with e | e
    · rw [e]; exact hA.isClosed.frontier_subset hfr
    · exact hbef q ⟨hq.1, e⟩)
  refine hfr.2 (mem_interior.2 ⟨Metric.thickening 1 S, Metric.thickening_subset_cthickening 1 S, Metric.isOpen_thickening, Metric.self_subset_thickening one_pos S hin⟩)

/-! ### from a margin to a sampling period -/

/-- Safety inside a compact domain. -/
theorem held_safe {F : Pt n → Pt m → Pt n} {k : Pt n → Pt m} (hF : Continuous (fun z : Pt n × Pt m => F z.1 z.2)) (hk : Continuous k) {I D U : Set (Pt n)} (hD : IsCompact D)
    (h : ∃ ε > 0, ∀ (T : ℝ) (ξ : ℝ → Pt n), Disturbed (fun p => F p (k p)) ε T ξ → ξ 0 ∈ I → (∀ t ∈ Icc 0 T, ξ t ∈ D) → ∀ t ∈ Icc 0 T, ξ t ∉ U) :
    ∃ h > 0, ∀ (T : ℝ) (ξ : ℝ → Pt n), Held F k h T ξ → ξ 0 ∈ I → (∀ t ∈ Icc 0 T, ξ t ∈ D) → ∀ t ∈ Icc 0 T, ξ t ∉ U := by
  obtain ⟨ε, hε, h⟩ := h
  obtain ⟨p, hp, key⟩ := held_disturbed hF hk hD hε
  exact ⟨p, hp, fun T ξ hξ h0 hin => h T ξ (key T ξ hξ hin) h0 hin⟩

/-- Reaching a goal while staying in a bounded set. -/
theorem held_reach {F : Pt n → Pt m → Pt n} {k : Pt n → Pt m} (hF : Continuous (fun z : Pt n × Pt m => F z.1 z.2)) (hk : Continuous k) {I S G : Set (Pt n)} (hS : Bornology.IsBounded S)
    (hI : I ⊆ S)
    (h : ∃ ε > 0, ∃ τ : ℝ, ∀ (T : ℝ) (ξ : ℝ → Pt n), Disturbed (fun p => F p (k p)) ε T ξ → ξ 0 ∈ I →
      (τ ≤ T → ∃ t ∈ Icc 0 τ, ξ t ∈ G) ∧ ∀ t ∈ Icc 0 T, ξ t ∈ S ∨ ∃ r ∈ Icc 0 t, ξ r ∈ G) :
    ∃ h > 0, ∃ τ : ℝ, ∀ (T : ℝ) (ξ : ℝ → Pt n), Held F k h T ξ → ξ 0 ∈ I →
      (τ ≤ T → ∃ t ∈ Icc 0 τ, ξ t ∈ G) ∧ ∀ t ∈ Icc 0 T, ξ t ∈ S ∨ ∃ r ∈ Icc 0 t, ξ r ∈ G := by
  obtain ⟨ε, hε, τ, h⟩ := h
  obtain ⟨p, hp, key⟩ := held_confined hF hk hS hε
  -- up to a first visit the errors are small
  have hd : ∀ (T : ℝ) (ξ : ℝ → Pt n), Held F k p T ξ → ξ 0 ∈ I → (∀ r ∈ Icc 0 T, ξ r ∉ G) → Disturbed (fun p => F p (k p)) ε T ξ := fun T ξ hξ h0 hno =>
    key T ξ hξ (hI h0) fun t ht hdt => by
      rcases (h t ξ hdt h0).2 t ⟨ht.1, le_rfl⟩ with h1 | ⟨r, hr, h1⟩
      · exact h1
      · exact absurd h1 (hno r ⟨hr.1, hr.2.trans ht.2⟩)
  refine ⟨p, hp, τ, fun T ξ hξ h0 => ⟨fun hT => ?_, fun t ht => ?_⟩⟩
  · by_contra hno
    push Not at hno
    obtain ⟨r, hr, h1⟩ := (h τ ξ (hd τ ξ (held_restrict hξ hT) h0 hno) h0).1 le_rfl
    exact hno r hr h1
  · by_cases hg : ∃ r ∈ Icc 0 t, ξ r ∈ G
    · exact Or.inr hg
    · push Not at hg
      exact (h t ξ (hd t ξ (held_restrict hξ ht.2) h0 hg) h0).2 t ⟨ht.1, le_rfl⟩

/-- A property of trajectories that confines them to a bounded set. -/
theorem held_stay {F : Pt n → Pt m → Pt n} {k : Pt n → Pt m} (hF : Continuous (fun z : Pt n × Pt m => F z.1 z.2)) (hk : Continuous k) {I S : Set (Pt n)} (hS : Bornology.IsBounded S)
    (hI : I ⊆ S) {P : ℝ → ℝ → (ℝ → Pt n) → Prop}
    (h : ∃ ε > 0, ∃ τ : ℝ, ∀ (T : ℝ) (ξ : ℝ → Pt n), Disturbed (fun p => F p (k p)) ε T ξ → ξ 0 ∈ I → P τ T ξ ∧ ∀ t ∈ Icc 0 T, ξ t ∈ S) :
    ∃ h > 0, ∃ τ : ℝ, ∀ (T : ℝ) (ξ : ℝ → Pt n), Held F k h T ξ → ξ 0 ∈ I → P τ T ξ ∧ ∀ t ∈ Icc 0 T, ξ t ∈ S := by
  obtain ⟨ε, hε, τ, h⟩ := h
  obtain ⟨p, hp, key⟩ := held_confined hF hk hS hε
  exact ⟨p, hp, τ, fun T ξ hξ h0 => h T ξ (key T ξ hξ (hI h0) fun t ht hdt => (h t ξ hdt h0).2 t ⟨ht.1, le_rfl⟩) h0⟩

/-- Settling in a compact set. -/
theorem held_settles {F : Pt n → Pt m → Pt n} {k : Pt n → Pt m} (hF : Continuous (fun z : Pt n × Pt m => F z.1 z.2)) (hk : Continuous k) {V : Pt n → ℝ} {A : Set (Pt n)}
    (hA : IsCompact A) {b c : ℝ}
    (h : ∃ ε > 0, ∃ τ : ℝ, ∀ (T : ℝ) (ξ : ℝ → Pt n), Disturbed (fun p => F p (k p)) ε T ξ → ξ 0 ∈ A → V (ξ 0) ≤ c → ∀ t ∈ Icc 0 T, ξ t ∈ A ∧ V (ξ t) ≤ c ∧ (τ ≤ t → V (ξ t) ≤ b)) :
    ∃ h > 0, ∃ τ : ℝ, ∀ (T : ℝ) (ξ : ℝ → Pt n), Held F k h T ξ → ξ 0 ∈ A → V (ξ 0) ≤ c → ∀ t ∈ Icc 0 T, ξ t ∈ A ∧ V (ξ t) ≤ c ∧ (τ ≤ t → V (ξ t) ≤ b) := by
  obtain ⟨ε, hε, τ, h⟩ := h
  obtain ⟨p, hp, τ', key⟩ := held_stay hF hk hA.isBounded (I := A ∩ {p | V p ≤ c}) inter_subset_left (P := fun τ T ξ => ∀ t ∈ Icc 0 T, V (ξ t) ≤ c ∧ (τ ≤ t → V (ξ t) ≤ b))
    ⟨ε, hε, τ, fun T ξ hξ h0 => ⟨fun t ht => (h T ξ hξ h0.1 h0.2 t ht).2, fun t ht => (h T ξ hξ h0.1 h0.2 t ht).1⟩⟩
  refine ⟨p, hp, τ', fun T ξ hξ h0 h1 t ht => ?_⟩
  obtain ⟨a, b⟩ := key T ξ hξ ⟨h0, h1⟩
  exact ⟨b t ht, a t ht⟩

theorem held_region {F : Pt n → Pt m → Pt n} {k : Pt n → Pt m} (hF : Continuous (fun z : Pt n × Pt m => F z.1 z.2)) (hk : Continuous k) {V : Pt n → ℝ} {level : ℝ} {I : Set (Pt n)}
    (h : TolerantRegion (fun p => F p (k p)) V level I) : HeldRegion F k V level I :=
  ⟨h.covers, fun A hA b hb h1 h2 => held_settles hF hk hA (h.settles A hA b hb h1 h2)⟩

theorem held_on {F : Pt n → Pt m → Pt n} {k : Pt n → Pt m} (hF : Continuous (fun z : Pt n × Pt m => F z.1 z.2)) (hk : Continuous k) {V : Pt n → ℝ} {D : Set (Pt n)}
    (h : ToleratesOn (fun p => F p (k p)) V D) : HeldOn F k V D where
  descends C hC hCD := by
    obtain ⟨ε, hε, δ, hδ, h⟩ := h.descends C hC hCD
    obtain ⟨p, hp, key⟩ := held_disturbed hF hk hC hε
    exact ⟨p, hp, δ, hδ, fun T ξ hξ hin => h T ξ (key T ξ hξ hin) hin⟩
  settles A H hA hAD b c l hbc hcl hH hfr := held_settles hF hk hA (h.settles A H hA hAD b c l hbc hcl hH hfr)

/-! ### runs on configuration files -/

section
variable {c : ControlConfig} {w0 : ℕ → ℕ → ℕ → ℚ} {r : ReadyControl} {m : ℕ} {F : Pt c.base.nVars → Pt m → Pt c.base.nVars} {w : World R Controller (Net × ℚ)}
  {T : Trainer Controller} {hidden : List ℕ} {acts : List ActivationType}

/-- **C94 (Barrier).** -/
theorem C94_control_barrier (h : ControlFileRun c w0 r m F w T hidden acts) (hc : c.base.cert = .BARRIER) (fl : ℝ → ℚ)
    (gs : ℕ → Rng) (g g' : Rng) (wt : ℕ → ℕ → ℕ → ℚ) (bs : ℕ → ℕ → ℚ) (hdraw : DrawsSome fl gs r.data) (hF : Continuous (fun z : Pt c.base.nVars × Pt m => F z.1 z.2))
    (I D U : Set (Pt c.base.nVars)) (hI : Configures c.base.nVars c.base.domains "XI" I) (hD : Configures c.base.nVars c.base.domains "XD" D) (hU : Configures c.base.nVars c.base.domains "XU" U) :
    ∃ net S out, newNet c.base.nVars hidden acts c.base.llo (certBias c.base.cert) wt bs = .ok net ∧ initData fl gs r.data = .ok S ∧
      Solves r.cfg.loop (singleComponents (w.withEstimate g g' r.cfg) r.cfg false (trainedLearn T r.cfg false w.dynNum)) (net, 0) r.ctrl S out ∧
      (out.iters : ℤ) ≤ c.base.maxIters + 1 ∧
      (out.found = true → ∃ h > 0, ∀ (T : ℝ) (ξ : ℝ → Pt c.base.nVars), Held F (controlValue m (rounded5 out.ctrl)) h T ξ → ξ 0 ∈ I → (∀ t ∈ Icc 0 T, ξ t ∈ D) →
        ∀ t ∈ Icc 0 T, ξ t ∉ U) := by
  obtain ⟨net, S, out, h1, h2, h3, h4, h5⟩ := C92_control_barrier h hc fl gs g g' wt bs hdraw hF I D U hI hD hU
  refine ⟨net, S, out, h1, h2, h3, h4, fun hf => ?_⟩
  obtain ⟨s, -, hs⟩ := hD
  exact held_safe hF (controlValue_continuous _ _ _) (setText_compact hs) (h5 hf)

/-- **C94 (reach-while-avoid and reach-and-stay).** -/
theorem C94_control_reach (h : ControlFileRun c w0 r m F w T hidden acts) (hc : c.base.cert = .RWS ∨ c.base.cert = .RWA ∨ c.base.cert = .RSWS ∨ c.base.cert = .RSWA) (hF : Continuous (fun z : Pt c.base.nVars × Pt m => F z.1 z.2)) (fl : ℝ → ℚ)
    (gs : ℕ → Rng) (g g' : Rng) (wt : ℕ → ℕ → ℕ → ℚ) (bs : ℕ → ℕ → ℚ) (hdraw : DrawsSome fl gs r.data)
    (I S D G : Set (Pt c.base.nVars)) (hI : Configures c.base.nVars c.base.domains "XI" I) (hS : Configures c.base.nVars c.base.domains "XS" S)
    (hD : Configures c.base.nVars c.base.domains "XD" D) (hG : Configures c.base.nVars c.base.domains "XG" G) (h1 : I ⊆ S) (h2 : I ⊆ D) (h3 : frontier S ⊆ D) :
    ∃ net S0 out, newNet c.base.nVars hidden acts c.base.llo (certBias c.base.cert) wt bs = .ok net ∧ initData fl gs r.data = .ok S0 ∧
      Solves r.cfg.loop (singleComponents (w.withEstimate g g' r.cfg) r.cfg false (trainedLearn T r.cfg false w.dynNum)) (net, 0) r.ctrl S0 out ∧
      (out.iters : ℤ) ≤ c.base.maxIters + 1 ∧
      (out.found = true → ∃ h > 0, ∃ τ : ℝ, ∀ (T : ℝ) (ξ : ℝ → Pt c.base.nVars), Held F (controlValue m (rounded5 out.ctrl)) h T ξ → ξ 0 ∈ I →
        (τ ≤ T → ∃ t ∈ Icc 0 τ, ξ t ∈ G) ∧ ∀ t ∈ Icc 0 T, ξ t ∈ S ∨ ∃ r ∈ Icc 0 t, ξ r ∈ G) := by
  obtain ⟨net, S0, out, e1, e2, e3, e4, e5⟩ := C92_control_reach h hc fl gs g g' wt bs hdraw I S D G hI hS hD hG h1 h2 h3
  refine ⟨net, S0, out, e1, e2, e3, e4, fun hf => ?_⟩
  obtain ⟨s, -, hs⟩ := hS
  exact held_reach hF (controlValue_continuous _ _ _) (setText_bounded hs) h1 (e5 hf)

/-- **C94 (reach-and-stay: staying).** -/
theorem C94_control_reach_stay (h : ControlFileRun c w0 r m F w T hidden acts) (hc : c.base.cert = .RSWS) (hF : Continuous (fun z : Pt c.base.nVars × Pt m => F z.1 z.2)) (fl : ℝ → ℚ)
    (gs : ℕ → Rng) (g g' : Rng) (wt : ℕ → ℕ → ℕ → ℚ) (bs : ℕ → ℕ → ℚ) (hdraw : DrawsSome fl gs r.data)
    (I S D G : Set (Pt c.base.nVars)) (hI : Configures c.base.nVars c.base.domains "XI" I) (hS : Configures c.base.nVars c.base.domains "XS" S)
    (hD : Configures c.base.nVars c.base.domains "XD" D) (hG : Configures c.base.nVars c.base.domains "XG" G) (h1 : I ⊆ S) (h2 : I ⊆ D) (h3 : frontier S ⊆ D) (h4 : G ⊆ S) :
    ∃ net S0 out, newNet c.base.nVars hidden acts c.base.llo (certBias c.base.cert) wt bs = .ok net ∧ initData fl gs r.data = .ok S0 ∧
      Solves r.cfg.loop (singleComponents (w.withEstimate g g' r.cfg) r.cfg false (trainedLearn T r.cfg false w.dynNum)) (net, 0) r.ctrl S0 out ∧
      (out.iters : ℤ) ≤ c.base.maxIters + 1 ∧
      (out.found = true → ∃ h > 0, ∃ τ : ℝ, ∀ (T : ℝ) (ξ : ℝ → Pt c.base.nVars), Held F (controlValue m (rounded5 out.ctrl)) h T ξ → ξ 0 ∈ I →
        (τ ≤ T → ∃ t₁ ∈ Icc 0 τ, ∀ t ∈ Icc t₁ T, ξ t ∈ G) ∧ ∀ t ∈ Icc 0 T, ξ t ∈ S) := by
  obtain ⟨net, S0, out, e1, e2, e3, e4, e5⟩ := C93_control_reach_stay h hc fl gs g g' wt bs hdraw I S D G hI hS hD hG h1 h2 h3 h4
  refine ⟨net, S0, out, e1, e2, e3, e4, fun hf => ?_⟩
  obtain ⟨s, -, hs⟩ := hS
  exact held_stay hF (controlValue_continuous _ _ _) (setText_bounded hs) h1 (P := fun τ T ξ => τ ≤ T → ∃ t₁ ∈ Icc 0 τ, ∀ t ∈ Icc t₁ T, ξ t ∈ G) (e5 hf)

/-- **C94 (ROA with LLO).** -/
theorem C94_control_roa (h : ControlFileRun c w0 r m F w T hidden acts) (hc : c.base.cert = .ROA) (hllo : c.base.llo = true) (fl : ℝ → ℚ)
    (gs : ℕ → Rng) (g g' : Rng) (wt : ℕ → ℕ → ℕ → ℚ) (bs : ℕ → ℕ → ℚ) (hdraw : DrawsSome fl gs r.data)
    (I : Set (Pt c.base.nVars)) (hI : Configures c.base.nVars c.base.domains "XI" I) (hF : Continuous (fun z : Pt c.base.nVars × Pt m => F z.1 z.2)) :
    ∃ net S out, newNet c.base.nVars hidden acts c.base.llo (certBias c.base.cert) wt bs = .ok net ∧ initData fl gs r.data = .ok S ∧
      Solves r.cfg.loop (singleComponents (w.withEstimate g g' r.cfg) r.cfg false (trainedLearn T r.cfg false w.dynNum)) (net, 0) r.ctrl S out ∧
      (out.iters : ℤ) ≤ c.base.maxIters + 1 ∧
      (out.found = true → HeldRegion F (controlValue m (rounded5 out.ctrl)) (certValue c.base.rounding c.base.quad out.net.1) ((out.net.2 : ℝ) * (11/10)) I) := by
  obtain ⟨net, S, out, h1, h2, h3, h4, h5⟩ := C93_control_roa h hc hllo fl gs g g' wt bs hdraw I hI hF
  refine ⟨net, S, out, h1, h2, h3, h4, fun hf => ?_⟩
  exact held_region hF (controlValue_continuous _ _ _) (h5 hf)

/-- **C94 (Lyapunov; as `C92_control_lyapunov`).** -/
theorem C94_control_lyapunov (h : ControlFileRun c w0 r m F w T hidden acts) (hc : c.base.cert = .LYAPUNOV) (fl : ℝ → ℚ)
    (gs : ℕ → Rng) (g g' : Rng) (wt : ℕ → ℕ → ℕ → ℚ) (bs : ℕ → ℕ → ℚ) (hdraw : DrawsSome fl gs r.data)
    (D : Set (Pt c.base.nVars)) (hD : Configures c.base.nVars c.base.domains "XD" D) (hF : Continuous (fun z : Pt c.base.nVars × Pt m => F z.1 z.2)) :
    ∃ net S, newNet c.base.nVars hidden acts c.base.llo (certBias c.base.cert) wt bs = .ok net ∧ initData fl gs r.data = .ok S ∧
      ((∃ out, Solves r.cfg.loop (singleComponents (w.withEstimate g g' r.cfg) r.cfg false (trainedLearn T r.cfg false w.dynNum)) (net, 0) r.ctrl S out ∧
        (out.iters : ℤ) ≤ c.base.maxIters + 1 ∧
        (out.found = true → HeldOn F (controlValue m (rounded5 out.ctrl)) (certValue c.base.rounding c.base.quad out.net.1) D)) ∨
      (∃ k st, Steps r.cfg.loop (singleComponents (w.withEstimate g g' r.cfg) r.cfg false (trainedLearn T r.cfg false w.dynNum))
        (initState (singleComponents (w.withEstimate g g' r.cfg) r.cfg false (trainedLearn T r.cfg false w.dynNum)) (net, 0) r.ctrl S) k st ∧
        MeetsZeroDerivative T r.cfg false w.dynNum st)) := by
  obtain ⟨net, S, h1, h2, h3⟩ := C92_control_lyapunov h hc fl gs g g' wt bs hdraw D hD hF
  refine ⟨net, S, h1, h2, h3.imp ?_ id⟩
  rintro ⟨out, h3, h4, h5⟩
  exact ⟨out, h3, h4, fun hf => held_on hF (controlValue_continuous _ _ _) (h5 hf)⟩

end

section
variable {c : ControlConfig} {w0 : ℕ → ℕ → ℕ → ℚ} {r : ReadyControl} {m : ℕ} {F : Pt c.base.nVars → Pt m → Pt c.base.nVars} {w : World R Controller ((Net × ℚ) × Net)}
  {T : Trainer2 Controller} {hidden hidden2 : List ℕ} {acts acts2 : List ActivationType}

/-- **C94 (stable-while-safe).** -/
theorem C94_control_stable_safe (h : ControlFileRun2 c w0 r m F w T hidden hidden2 acts acts2) (hc : c.base.cert = .STABLESAFE) (fl : ℝ → ℚ)
    (gs : ℕ → Rng) (wt wt2 : ℕ → ℕ → ℕ → ℚ) (bs bs2 : ℕ → ℕ → ℚ) (hdraw : DrawsSome fl gs r.data)
    (I D U : Set (Pt c.base.nVars)) (hI : Configures c.base.nVars c.base.domains "XI" I)
    (hD : Configures c.base.nVars c.base.domains "XD" D) (hU : Configures c.base.nVars c.base.domains "XU" U) (hF : Continuous (fun z : Pt c.base.nVars × Pt m => F z.1 z.2)) :
    ∃ net net2 S out, newNet c.base.nVars hidden acts c.base.llo (certBias2 c.base.cert).1 wt bs = .ok net ∧
      newNet c.base.nVars hidden2 acts2 false (certBias2 c.base.cert).2 wt2 bs2 = .ok net2 ∧ initData fl gs r.data = .ok S ∧
      Solves r.cfg.loop (doubleComponents w r.cfg (trainedLearn2 T r.cfg w.dynNum)) ((net, 0), net2) r.ctrl S out ∧ (out.iters : ℤ) ≤ c.base.maxIters + 1 ∧
      (out.found = true → ∃ h > 0, ∀ (T : ℝ) (ξ : ℝ → Pt c.base.nVars), Held F (controlValue m (rounded5 out.ctrl)) h T ξ → ξ 0 ∈ I → (∀ t ∈ Icc 0 T, ξ t ∈ D) →
        ∀ t ∈ Icc 0 T, ξ t ∉ U) := by
  obtain ⟨net, net2, S0, out, e1, e2, e3, e4, e5, e6⟩ := C93_control_stable_safe h hc fl gs wt wt2 bs bs2 hdraw I D U hI hD hU hF
  refine ⟨net, net2, S0, out, e1, e2, e3, e4, e5, fun hf => ?_⟩
  obtain ⟨s, -, hs⟩ := hD
  exact held_safe hF (controlValue_continuous _ _ _) (setText_compact hs) (e6 hf)

/-- **C94 (reach-avoid-remain).** -/
theorem C94_control_rar (h : ControlFileRun2 c w0 r m F w T hidden hidden2 acts acts2) (hc : c.base.cert = .RAR) (fl : ℝ → ℚ)
    (gs : ℕ → Rng) (wt wt2 : ℕ → ℕ → ℕ → ℚ) (bs bs2 : ℕ → ℕ → ℚ) (hdraw : DrawsSome fl gs r.data)
    (I S D G P : Set (Pt c.base.nVars)) (hI : Configures c.base.nVars c.base.domains "XI" I)
    (hS : Configures c.base.nVars c.base.domains "XS" S) (hD : Configures c.base.nVars c.base.domains "XD" D) (hG : Configures c.base.nVars c.base.domains "XG" G)
    (hP : Configures c.base.nVars c.base.domains "XF" P) (h1 : I ⊆ S) (h2 : I ⊆ D) (h3 : frontier S ⊆ D) (hF : Continuous (fun z : Pt c.base.nVars × Pt m => F z.1 z.2)) :
    ∃ net net2 S0 out, newNet c.base.nVars hidden acts c.base.llo (certBias2 c.base.cert).1 wt bs = .ok net ∧
      newNet c.base.nVars hidden2 acts2 false (certBias2 c.base.cert).2 wt2 bs2 = .ok net2 ∧ initData fl gs r.data = .ok S0 ∧
      Solves r.cfg.loop (doubleComponents w r.cfg (trainedLearn2 T r.cfg w.dynNum)) ((net, 0), net2) r.ctrl S0 out ∧ (out.iters : ℤ) ≤ c.base.maxIters + 1 ∧
      (out.found = true → ∃ h > 0, ∃ τ : ℝ, ∀ (T : ℝ) (ξ : ℝ → Pt c.base.nVars), Held F (controlValue m (rounded5 out.ctrl)) h T ξ → ξ 0 ∈ I → (∀ t ∈ Icc 0 T, ξ t ∈ D) →
        (τ ≤ T → ∃ t ∈ Icc 0 τ, ξ t ∈ G) ∧ (∀ t ∈ Icc 0 T, ξ t ∈ S ∨ ∃ r ∈ Icc 0 t, ξ r ∈ G) ∧ ∀ r ∈ Icc 0 T, ξ r ∈ G → ∀ t ∈ Icc r T, ξ t ∈ P) := by
  obtain ⟨net, net2, S0, out, e1, e2, e3, e4, e5, e6⟩ := C93_control_rar h hc fl gs wt wt2 bs bs2 hdraw I S D G P hI hS hD hG hP h1 h2 h3 hF
  refine ⟨net, net2, S0, out, e1, e2, e3, e4, e5, fun hf => ?_⟩
  obtain ⟨s, -, hs⟩ := hD
  obtain ⟨ε, hε, τ, key⟩ := e6 hf
  obtain ⟨p, hp, hheld⟩ := held_disturbed hF (controlValue_continuous _ _ _) (setText_compact hs) hε
  exact ⟨p, hp, τ, fun T ξ hξ h0 hin => key T ξ (hheld T ξ hξ hin) h0 hin⟩

end

/-! ### discrete time -/

namespace Spec

/-- The discrete-time system `F` with inaccurate sensors and actuators: each component of the input is within `h` of the output of `k` on a measured state, each component of which is
within `h` of the state. -/
def HeldRun (F : Pt n → Pt m → Pt n) (k : Pt n → Pt m) (h : ℝ) (x : ℕ → Pt n) : Prop :=
  ∀ j, ∃ q : Pt n, (∀ i, |q i - x j i| ≤ h) ∧ ∃ u : Pt m, (∀ i, |u i - k q i| ≤ h) ∧ x (j + 1) = F (x j) u

/-- What a Lyapunov certificate `V` verified on `D` means for such runs: as `ToleratesOnDT`. -/
structure HeldOnDT (F : Pt n → Pt m → Pt n) (k : Pt n → Pt m) (V : Pt n → ℝ) (D : Set (Pt n)) : Prop where
  descends : ∀ C : Set (Pt n), IsCompact C → (∀ p ∈ C, p ∈ D ∧ p ≠ 0) → ∃ h > 0, ∃ δ > 0, ∀ x : ℕ → Pt n, HeldRun F k h x →
    ∀ j, x j ∈ C → V (x (j + 1)) ≤ V (x j) - δ
  settles : ∀ (H : Set (Pt n)) (b c : ℝ), b ≤ c → IsCompact {p | V p ≤ c} → (∀ p, V p ≤ c → p ∉ H → p ∈ D ∧ p ≠ 0) → (∀ p ∈ H, V p < b ∧ V (F p (k p)) < b) →
    ∃ h > 0, ∃ N : ℕ, ∀ x : ℕ → Pt n, HeldRun F k h x → V (x 0) ≤ c → ∀ j, V (x j) ≤ c ∧ (N ≤ j → V (x j) ≤ b)

end Spec

/-- From a state in a compact set inaccurate sensors and actuators are a small error. -/
theorem held_step {F : Pt n → Pt m → Pt n} {k : Pt n → Pt m} (hF : Continuous (fun z : Pt n × Pt m => F z.1 z.2)) (hk : Continuous k) {A : Set (Pt n)} (hA : IsCompact A)
    {ε : ℝ} (hε : 0 < ε) : ∃ h > 0, ∀ x : ℕ → Pt n, HeldRun F k h x → ∀ j, x j ∈ A → ∀ i, |x (j + 1) i - F (x j) (k (x j)) i| ≤ ε := by
  have hA1 : IsCompact (Metric.cthickening 1 A) := Metric.isCompact_of_isClosed_isBounded Metric.isClosed_cthickening hA.isBounded.cthickening
  have hU1 : IsCompact (Metric.cthickening 1 (k '' Metric.cthickening 1 A)) :=
    Metric.isCompact_of_isClosed_isBounded Metric.isClosed_cthickening (hA1.image hk).isBounded.cthickening
  have hAU := hA.prod hU1
  obtain ⟨δ, hδ, hu⟩ := Metric.uniformContinuousOn_iff.1 (hAU.uniformContinuousOn_of_continuous hF.continuousOn) ε hε
  obtain ⟨δ', hδ', hk'⟩ := Metric.uniformContinuousOn_iff.1 (hA1.uniformContinuousOn_of_continuous hk.continuousOn) (δ / 2) (half_pos hδ)
  refine ⟨min 1 (min (δ / 3) (δ' / 2)), by positivity, fun x hx j hj i => ?_⟩
  generalize hh : min 1 (min (δ / 3) (δ' / 2)) = h at hx
  have hh1 : h ≤ 1 := hh ▸ min_le_left _ _
  have hh2 : h ≤ δ / 3 := hh ▸ (min_le_right _ _).trans (min_le_left _ _)
  have hh3 : h ≤ δ' / 2 := hh ▸ (min_le_right _ _).trans (min_le_right _ _)
  have hh0 : 0 ≤ h := hh ▸ by positivity
  obtain ⟨q, hq, u, hqu, hd⟩ := hx j
  have h1 : dist q (x j) ≤ h := (dist_pi_le_iff hh0).2 fun i => by rw [Real.dist_eq]; exact hq i
  have h2 : dist u (k q) ≤ h := (dist_pi_le_iff hh0).2 fun i => by rw [Real.dist_eq]; exact hqu i
  have h3 : q ∈ Metric.cthickening 1 A := Metric.mem_cthickening_of_dist_le q (x j) 1 A hj (h1.trans hh1)
  have hx1 : x j ∈ Metric.cthickening 1 A := Metric.self_subset_cthickening A hj
  have hut : dist u (k (x j)) < δ := by
    have := hk' q h3 (x j) hx1 (by linarith)
    linarith [dist_triangle u (k q) (k (x j))]
  have h4 := hu (x j, u) ⟨hj, Metric.mem_cthickening_of_dist_le u (k q) 1 _ ⟨q, h3, rfl⟩ (h2.trans hh1)⟩ (x j, k (x j))
    ⟨hj, Metric.self_subset_cthickening _ ⟨_, hx1, rfl⟩⟩ (by rw [Prod.dist_eq, dist_self, max_eq_right dist_nonneg]; exact hut)
  rw [dist_eq_norm] at h4
  have h5 := norm_le_pi_norm (F (x j) u - F (x j) (k (x j))) i
  rw [Real.norm_eq_abs, Pi.sub_apply] at h5
  rw [hd]
  exact h5.trans h4.le

/-- A finite part of a run with small errors is part of a whole one. -/
theorem disturbedRun_extend {F : Pt n → Pt n} {ε : ℝ} (hε : 0 ≤ ε) {x : ℕ → Pt n} {N : ℕ} (h : ∀ j < N, ∀ i, |x (j + 1) i - F (x j) i| ≤ ε) :
    ∃ y, DisturbedRun F ε y ∧ ∀ j ≤ N, y j = x j := by
  refine ⟨fun j => F^[j - N] (x (min j N)), fun j i => ?_, fun j hj => by simp [hj]⟩
  rcases lt_or_ge j N with e | e
  · have e1 : j + 1 ≤ N := e
    simp only [Nat.sub_eq_zero_of_le e1, Nat.sub_eq_zero_of_le e.le, Function.iterate_zero, id, min_eq_left e1, min_eq_left e.le]
    exact h j e i
  · have e1 : j + 1 - N = (j - N) + 1 := by omega
    simp only [e1, Function.iterate_succ_apply', min_eq_right e, min_eq_right (e.trans (Nat.le_succ j)), sub_self, abs_zero]
    exact hε

theorem held_on_dt {F : Pt n → Pt m → Pt n} {k : Pt n → Pt m} (hF : Continuous (fun z : Pt n × Pt m => F z.1 z.2)) (hk : Continuous k) {V : Pt n → ℝ} {D : Set (Pt n)}
    (h : ToleratesOnDT (fun p => F p (k p)) V D) : HeldOnDT F k V D where
  descends C hC hCD := by
    obtain ⟨ε, hε, δ, hδ, key⟩ := h.descends C hC hCD
    obtain ⟨p, hp, hs⟩ := held_step hF hk hC hε
    refine ⟨p, hp, δ, hδ, fun x hx j hj => ?_⟩
    obtain ⟨y, hy, hyx⟩ := disturbedRun_extend (F := fun p => F p (k p)) (x := fun l => x (j + l)) (N := 1) hε.le fun l hl => by
      obtain rfl : l = 0 := by omega
      exact hs x hx j hj
    have h0 : y 0 = x j := hyx 0 zero_le_one
    have h1 : y 1 = x (j + 1) := hyx 1 le_rfl
    have := key y hy 0 (h0 ▸ hj)
    rwa [h0, h1] at this
  settles H b c hbc hc hD hH := by
    obtain ⟨ε, hε, N, key⟩ := h.settles H b c hbc hc hD hH
    obtain ⟨p, hp, hs⟩ := held_step hF hk hc hε
    refine ⟨p, hp, N, fun x hx h0 => ?_⟩
    have main : ∀ l, ∀ j ≤ l, V (x j) ≤ c ∧ (N ≤ j → V (x j) ≤ b) := by
      intro l
      induction l with
      | zero =>
        intro j hj
        obtain rfl : j = 0 := by omega
        obtain ⟨y, hy, hyx⟩ := disturbedRun_extend (F := fun p => F p (k p)) (x := x) (N := 0) hε.le fun l hl => by omega
        have := key y hy (by rw [hyx 0 le_rfl]; exact h0) 0
        rwa [hyx 0 le_rfl] at this
      | succ l ih =>
        intro j hj
        obtain ⟨y, hy, hyx⟩ := disturbedRun_extend (F := fun p => F p (k p)) (x := x) (N := l + 1) hε.le fun q hq => hs x hx q (ih q (by omega)).1
        have := key y hy (by rw [hyx 0 (by omega)]; exact h0) j
        rwa [hyx j hj] at this
    exact fun j => main j j le_rfl

section
variable {c : ControlConfig} {w0 : ℕ → ℕ → ℕ → ℚ} {r : ReadyControl} {m : ℕ} {F : Pt c.base.nVars → Pt m → Pt c.base.nVars} {w : World R Controller (Net × ℚ)}
  {T : Trainer Controller} {hidden : List ℕ} {acts : List ActivationType}

/-- **C94 (Lyapunov, discrete time, any activations).** -/
theorem C94_control_lyapunov_dt (h : AnyControlRun c w0 r m F w T hidden acts) (hc : c.base.cert = .LYAPUNOV) (hq : c.base.quad = false) (hrnd : c.base.rounding ≠ 0) (fl : ℝ → ℚ)
    (gs : ℕ → Rng) (g g' : Rng) (wt : ℕ → ℕ → ℕ → ℚ) (bs : ℕ → ℕ → ℚ) (hdraw : DrawsSome fl gs r.data)
    (D : Set (Pt c.base.nVars)) (hD : Configures c.base.nVars c.base.domains "XD" D) (hF : Continuous (fun z : Pt c.base.nVars × Pt m => F z.1 z.2)) :
    ∃ net S, newNet c.base.nVars hidden acts c.base.llo (certBias c.base.cert) wt bs = .ok net ∧ initData fl gs r.data = .ok S ∧
      ((∃ out, Solves r.cfg.loop (singleComponents (w.withEstimate g g' r.cfg) r.cfg true (trainedLearn T r.cfg true w.dynNum)) (net, 0) r.ctrl S out ∧
        (out.iters : ℤ) ≤ c.base.maxIters + 1 ∧
        (out.found = true → HeldOnDT F (controlValue m (rounded5 out.ctrl)) (certValue c.base.rounding false out.net.1) D)) ∨
      (∃ k st, Steps r.cfg.loop (singleComponents (w.withEstimate g g' r.cfg) r.cfg true (trainedLearn T r.cfg true w.dynNum))
        (initState (singleComponents (w.withEstimate g g' r.cfg) r.cfg true (trainedLearn T r.cfg true w.dynNum)) (net, 0) r.ctrl S) k st ∧
        MeetsZeroDerivative T r.cfg true w.dynNum st)) := by
  obtain ⟨net, S, h1, h2, h3⟩ := C92_control_lyapunov_dt h hc hq hrnd fl gs g g' wt bs hdraw D hD hF
  refine ⟨net, S, h1, h2, h3.imp ?_ id⟩
  rintro ⟨out, h3, h4, h5⟩
  exact ⟨out, h3, h4, fun hf => held_on_dt hF (controlValue_continuous _ _ _) (h5 hf)⟩

end

/-! ### sampling, and curves that meet the hypotheses -/

/-- A controller that samples at `0, h, 2h, …` and holds its output in between is a case. -/
theorem held_of_sampled {F : Pt n → Pt m → Pt n} {k : Pt n → Pt m} {h T : ℝ} {ξ : ℝ → Pt n} (hh : 0 < h) (hc : ContinuousOn ξ (Icc 0 T))
    (hd : ∀ t ∈ Ico 0 T, HasDerivWithinAt ξ (F (ξ t) (k (ξ (h * ⌊t / h⌋)))) (Ici t) t) : Held F k h T ξ := by
  refine ⟨hc, fun t ht => ⟨h * ⌊t / h⌋, ⟨mul_nonneg hh.le (by exact_mod_cast Int.floor_nonneg.2 (div_nonneg ht.1 hh.le)), ?_⟩, ?_, ξ (h * ⌊t / h⌋), fun i => ?_, _, fun i => ?_, hd t ht⟩⟩
  rotate_left 2
  · simp [hh.le]
  · simp [hh.le]
  · have := Int.floor_le (t / h)
    rw [le_div_iff₀ hh] at this
    linarith
  · have := (Int.lt_floor_add_one (t / h)).le
    rw [div_le_iff₀ hh] at this
    linarith

/-- `x' = u` with `u = -x` sampled at period `1/2`: from `1` the curve is `1 - t` until `1/2` and `3/4 - t/2` until `1`, with a corner. It is no trajectory of `x' = -x`. -/
example : ∃ ξ : ℝ → Pt 1, Held (fun _ u => u) (fun p i => - p i) (1/2) 1 ξ ∧ ξ 0 = (fun _ => 1) ∧ ¬ Disturbed (fun p i => - p i) (1/10) 1 ξ := by
  have hmax : ∀ t : ℝ, (max (1 - t) (3/4 - t/2)) = if t < 1/2 then 1 - t else 3/4 - t/2 := by
    intro t
    split_ifs with h
    · exact max_eq_left (by linarith)
    · exact max_eq_right (by linarith)
  have hleft : ∀ t : ℝ, 0 ≤ t → t < 1/2 → HasDerivWithinAt (fun (t : ℝ) (_ : Fin 1) => max (1 - t) (3/4 - t/2)) (fun _ => -1) (Ici t) t := by
    intro t h0 h1
    refine hasDerivWithinAt_pi.2 fun _ => ?_
    refine HasDerivAt.hasDerivWithinAt ?_
    refine (((hasDerivAt_id t).const_sub 1)).congr_of_eventuallyEq ?_
    filter_upwards [Iio_mem_nhds h1] with q hq
    rw [hmax, if_pos (show q < 1/2 from hq)]; rfl
  have hright : ∀ t : ℝ, 1/2 ≤ t → HasDerivWithinAt (fun (t : ℝ) (_ : Fin 1) => max (1 - t) (3/4 - t/2)) (fun _ => -(1/2)) (Ici t) t := by
    intro t h1
    refine hasDerivWithinAt_pi.2 fun _ => ?_
    have e : HasDerivWithinAt (fun q : ℝ => 3/4 - q/2) (-(1/2)) (Ici t) t := by
      have := (((hasDerivAt_id t).div_const 2).const_sub (3/4)).hasDerivWithinAt (s := Ici t)
      simpa using this
    refine e.congr (fun q hq => ?_) ?_
    · rw [hmax, if_neg (not_lt.2 (h1.trans hq))]
    · rw [hmax, if_neg (not_lt.2 h1)]
  refine ⟨fun t _ => max (1 - t) (3/4 - t/2), held_of_sampled (by norm_num) (by fun_prop) ?_, by funext i; norm_num, ?_⟩
  · intro t ht
    rcases lt_or_ge t (1/2) with h | h
    · have hf : ⌊t / (1/2)⌋ = 0 := Int.floor_eq_zero_iff.2 ⟨div_nonneg ht.1 (by norm_num), by rw [div_lt_one (by norm_num)]; exact h⟩
      rw [hf]
      refine (hleft t ht.1 h).congr_deriv ?_
      funext i; norm_num
    · have hf : ⌊t / (1/2)⌋ = 1 := by
        rw [Int.floor_eq_iff]
        have := ht.2
        constructor
        · push_cast; rw [le_div_iff₀ (by norm_num)]; linarith
        · push_cast; rw [div_lt_iff₀ (by norm_num)]; linarith
      rw [hf]
      refine (hright t h).congr_deriv ?_
      funext i; norm_num
  · intro hdist
    obtain ⟨v, hv, hb⟩ := hdist.2 (1/4) ⟨by norm_num, by norm_num⟩
    have huniq : v = fun _ => -1 := (uniqueDiffWithinAt_Ici (1/4 : ℝ)).eq_deriv _ hv (hleft (1/4) (by norm_num) (by norm_num))
    have := hb 0
    rw [huniq] at this
    norm_num at this

/-- In discrete time, `x ↦ u` with `u = x / 2` and an actuator that is off by up to `1/10`: the run may stay at `1/10` for ever, so settling near the origin is all that can be claimed. -/
example : HeldRun (fun (_ u : Pt 1) => u) (fun p i => p i / 2) (1/10) (fun _ _ => 1/10) := fun _ =>
  ⟨fun _ => 1/10, fun _ => by norm_num, fun _ => 1/10, fun _ => by rw [abs_le]; constructor <;> norm_num, rfl⟩

/- Files and worlds that meet the hypotheses of each theorem of this file are those at the end of `C92_Margin` and `C93_MarginMore`: the hypotheses are the same. -/

/-- One of them, with the continuity of the field: a driven run on a reach-and-stay file. -/
example : (∃ r, ControlFileRun (exDriven .RSWS exStayConfig.domains exStayConfig.nData ⟨1, true, false⟩ false) exWeights r 1 exControlField (exDrivenWorld (Net × ℚ)) exTrainerK [1] [.SQUARE]) ∧
    Continuous (fun z : Pt 1 × Pt 1 => exControlField z.1 z.2) := by
  refine ⟨?_, by unfold exControlField; fun_prop⟩
  have hs := fun i V Vdot => stayWorld_search (Net × ℚ) [.neg (.var 0)] ⟨.z3, 1, .RSWS, exStayDoms, false, 3, false, 10⟩ ⟨_, rfl, fun V Vdot β => ⟨_, rfl⟩⟩ i V Vdot
  exact ⟨_, ⟨Or.inl rfl, ⟨exStay_described.1, exStay_described.2⟩, exControl_text _ _, by decide, exDriven_ready (readConfig_inv exStay_ready_data).2, (by decide : (0 : ℤ) ≤ 10), exDrivenWorld_sound _ _,
    fun k f hf => exLoops_eq k f hf, exDrivenWorld_fair _, fun _ => hs, fun _ _ _ => ⟨sameShape_refl _, sameController_refl _⟩, exFile_good⟩⟩

end Fossil

/-
Lyapunov's theorems for functions that decrease along trajectories without a continuous derivative: the trajectories of
unit length in a compact set form a compact set (for pointwise convergence), so a strict decrease is a uniform decrease.
-/
import Verif.Lemmas.Kinks
import Verif.Lemmas.Stability
import Verif.Props.C12_Reach
import Mathlib.Topology.Compactness.Compact

namespace Fossil
open Spec Set Filter Topology

variable {n : ℕ}

/-- A strict decrease along all trajectories of unit length in a compact set is uniform. -/
theorem uniform_decrease {F : Pt n → Pt n} (hF : Continuous F) {V : Pt n → ℝ} (hV : Continuous V) {K : Set (Pt n)}
    (hK : IsCompact K)
    (hdec : ∀ η : ℝ → Pt n, Trajectory F 1 η → (∀ t ∈ Icc (0:ℝ) 1, η t ∈ K) → V (η 1) < V (η 0)) :
    ∃ δ > 0, ∀ η : ℝ → Pt n, Trajectory F 1 η → (∀ t ∈ Icc (0:ℝ) 1, η t ∈ K) → V (η 1) ≤ V (η 0) - δ := by
  obtain ⟨M, hM⟩ := (hK.image hF).isBounded.exists_norm_le
  have hMp : ∀ p ∈ K, ‖F p‖ ≤ M := fun p hp => hM _ ⟨p, hp, rfl⟩
  -- the modulus of continuity of the field along curves of speed at most `M`
  let good : ℝ → ℝ → Prop := fun ε δ => ∀ p ∈ K, ∀ q ∈ K, ‖p - q‖ ≤ M * δ → ‖F p - F q‖ ≤ ε
  let C : Set (ℝ → Pt n) := {h | ∀ ε δ : ℝ, good ε δ → ∀ s ∈ Icc (0:ℝ) 1, ∀ t ∈ Icc (0:ℝ) 1, |t - s| ≤ δ →
    ‖h t - h s - (t - s) • F (h s)‖ ≤ ε * |t - s|}
  have hC : IsClosed C := by
    have : C = ⋂ (ε : ℝ) (δ : ℝ) (_ : good ε δ) (s : ℝ) (_ : s ∈ Icc (0:ℝ) 1) (t : ℝ) (_ : t ∈ Icc (0:ℝ) 1)
        (_ : |t - s| ≤ δ), {h : ℝ → Pt n | ‖h t - h s - (t - s) • F (h s)‖ ≤ ε * |t - s|} := by
      ext h
      simp only [C, mem_iInter]
      rfl
    rw [this]
    refine isClosed_iInter fun ε => isClosed_iInter fun δ => isClosed_iInter fun _ => isClosed_iInter fun s =>
      isClosed_iInter fun _ => isClosed_iInter fun t => isClosed_iInter fun _ => isClosed_iInter fun _ => ?_
    refine isClosed_le ?_ continuous_const
    have h1 : Continuous fun h : ℝ → Pt n => F (h s) := hF.comp (continuous_apply s)
    exact (((continuous_apply t).sub (continuous_apply s)).sub (h1.const_smul (t - s))).norm
  have hA : IsCompact ((Set.univ.pi fun _ : ℝ => K) ∩ C) := (isCompact_univ_pi fun _ => hK).inter_right hC
  -- members are trajectories
  have hmem : ∀ h ∈ (Set.univ.pi fun _ : ℝ => K) ∩ C, Trajectory F 1 h := by
    intro h hh s hs
    rw [hasDerivWithinAt_iff_isLittleO, Asymptotics.isLittleO_iff]
    intro ε hε
    obtain ⟨δ, hδ, hgood⟩ : ∃ δ > 0, good ε δ := by
      have huc := Metric.uniformContinuousOn_iff.1 (hK.uniformContinuousOn_of_continuous hF.continuousOn) ε hε
      obtain ⟨δ, hδ, hu⟩ := huc
      have hM1 : 0 < |M| + 1 := by positivity
      refine ⟨δ / (2 * (|M| + 1)), by positivity, fun p hp q hq hpq => ?_⟩
      rw [← dist_eq_norm]
      refine (hu p hp q hq ?_).le
      rw [dist_eq_norm]
      refine lt_of_le_of_lt hpq ?_
      have h1 : M * (δ / (2 * (|M| + 1))) ≤ |M| * (δ / (2 * (|M| + 1))) :=
        mul_le_mul_of_nonneg_right (le_abs_self M) (by positivity)
      have h2 : |M| * (δ / (2 * (|M| + 1))) < δ := by
        rw [mul_div_assoc', div_lt_iff₀ (by positivity)]
        nlinarith [abs_nonneg M]
      linarith
    have hnear : ∀ᶠ t in 𝓝[Icc 0 1] s, |t - s| ≤ δ := by
      refine mem_nhdsWithin_of_mem_nhds ?_
      filter_upwards [Metric.closedBall_mem_nhds s hδ] with t ht
      simpa [Real.dist_eq] using ht
    filter_upwards [hnear, self_mem_nhdsWithin] with t ht1 ht2
    have := hh.2 ε δ hgood s hs t ht2 ht1
    simpa [Real.norm_eq_abs] using this
  -- clamped trajectories are members
  have hclamp : ∀ η : ℝ → Pt n, Trajectory F 1 η → (∀ t ∈ Icc (0:ℝ) 1, η t ∈ K) →
      (fun t => η (max 0 (min 1 t))) ∈ (Set.univ.pi fun _ : ℝ => K) ∩ C := by
    intro η hη hin
    have hcl : ∀ t : ℝ, max 0 (min 1 t) ∈ Icc (0:ℝ) 1 := fun t => ⟨le_max_left _ _, max_le zero_le_one (min_le_left _ _)⟩
    refine ⟨fun t _ => hin _ (hcl t), ?_⟩
    intro ε δ hgood s hs t ht hst
    have es : max 0 (min 1 s) = s := by rw [min_eq_right hs.2, max_eq_right hs.1]
    have et : max 0 (min 1 t) = t := by rw [min_eq_right ht.2, max_eq_right ht.1]
    show ‖η (max 0 (min 1 t)) - η (max 0 (min 1 s)) - (t - s) • F (η (max 0 (min 1 s)))‖ ≤ ε * |t - s|
    rw [es, et]
    have hsub : uIcc s t ⊆ Icc 0 1 := uIcc_subset_Icc hs ht
    have hlip : ∀ r ∈ uIcc s t, ‖η r - η s‖ ≤ M * |t - s| := by
      intro r hr
      have h1 := (convex_uIcc s t).norm_image_sub_le_of_norm_hasDerivWithin_le (C := M)
        (fun x hx => (hη x (hsub hx)).mono hsub) (fun x hx => hMp _ (hin x (hsub hx))) left_mem_uIcc hr
      rw [Real.norm_eq_abs] at h1
      have hM0 : 0 ≤ M := (norm_nonneg _).trans (hMp _ (hin s hs))
      refine h1.trans (mul_le_mul_of_nonneg_left ?_ hM0)
      exact abs_sub_left_of_mem_uIcc hr
    have hder : ∀ x ∈ uIcc s t, HasDerivWithinAt (fun r => η r - (r - s) • F (η s)) (F (η x) - (1 : ℝ) • F (η s)) (uIcc s t) x :=
      fun x hx => ((hη x (hsub hx)).mono hsub).sub (((hasDerivWithinAt_id x _).sub_const s).smul_const (F (η s)))
    have := (convex_uIcc s t).norm_image_sub_le_of_norm_hasDerivWithin_le (C := ε) hder (fun x hx => by
      rw [one_smul]
      refine hgood _ (hin x (hsub hx)) _ (hin s hs) ((hlip x hx).trans ?_)
      exact mul_le_mul_of_nonneg_left hst ((norm_nonneg _).trans (hMp _ (hin s hs)))) left_mem_uIcc right_mem_uIcc
    simp only [sub_self, zero_smul, sub_zero, Real.norm_eq_abs] at this
    have e : η t - η s - (t - s) • F (η s) = η t - (t - s) • F (η s) - η s := by abel
    rw [e]; exact this
  rcases ((Set.univ.pi fun _ : ℝ => K) ∩ C).eq_empty_or_nonempty with he | he
  · refine ⟨1, one_pos, fun η hη hin => ?_⟩
    have := hclamp η hη hin
    rw [he] at this
    exact absurd this (by simp)
  · have hcont : Continuous fun h : ℝ → Pt n => V (h 0) - V (h 1) :=
      (hV.comp (continuous_apply 0)).sub (hV.comp (continuous_apply 1))
    obtain ⟨q, hq, hmin⟩ := hA.exists_isMinOn he hcont.continuousOn
    refine ⟨V (q 0) - V (q 1), sub_pos.2 (hdec q (hmem q hq) fun t _ => hq.1 t (mem_univ _)), fun η hη hin => ?_⟩
    have := hmin (hclamp η hη hin)
    rw [Set.mem_ofPred_eq] at this
    simp only [min_eq_right zero_le_one, max_self, min_self, max_eq_right (zero_le_one (α := ℝ))] at this
    linarith

/-- The certificate is differentiable along trajectories at all but countably many times. -/
def OffLie (F : Pt n → Pt n) (V L : Pt n → ℝ) : Prop :=
  ∀ (T : ℝ) (ξ : ℝ → Pt n), Trajectory F T ξ → OffC (fun t => V (ξ t)) (fun t => L (ξ t)) 0 T

/-- Lyapunov's stability theorem, countably many exceptions. -/
theorem stable_off {V L : Pt n → ℝ} {F : Pt n → Pt n} (hV : Continuous V) (hL : OffLie F V L)
    {D : Set (Pt n)} (hD : D ∈ 𝓝 0) (hpos : ∀ p ∈ D, p ≠ 0 → V 0 < V p) (hneg : ∀ p ∈ D, p ≠ 0 → L p ≤ 0) :
    Stable F := by
  intro U hU
  obtain ⟨R, hR, c, hc, hsub, hs⟩ := exists_level hV hD hpos hU
  obtain ⟨b, hb0, hbc⟩ := exists_between hc
  refine ⟨Metric.closedBall 0 R ∩ {p | V p < b}, inter_mem (Metric.closedBall_mem_nhds _ hR)
    ((isOpen_Iio.preimage hV).mem_nhds hb0), fun T ξ hξ h0 t ht => ?_⟩
  have := (hL T ξ hξ).stay (A := Metric.closedBall 0 R) (traj_continuousOn hξ) h0.1 hbc (le_of_lt h0.2)
    (fun t _ hf => (hs _ (by simpa using Metric.frontier_closedBall_subset_sphere hf)).le)
    (fun t _ hA h1 _ => hneg _ (hsub hA).1 (by intro e; rw [e] at h1; linarith)) t ht
  exact (hsub this.1).2

/-- Ultimate boundedness without a continuous derivative. -/
theorem ultimate_off {V L : Pt n → ℝ} {F : Pt n → Pt n} (hF : Continuous F) (hV : Continuous V) (hL : OffLie F V L)
    {A : Set (Pt n)} (hA : IsCompact A) {b c c' : ℝ} (hbc : b ≤ c) (hcc : c < c')
    (hneg : ∀ p ∈ A, b ≤ V p → V p < c' → L p < 0) (hs : ∀ p ∈ frontier A, c' ≤ V p) :
    ∃ τ : ℝ, ∀ (T : ℝ) (ξ : ℝ → Pt n), Trajectory F T ξ → ξ 0 ∈ A → V (ξ 0) ≤ c → ∀ t ∈ Icc 0 T,
      ξ t ∈ A ∧ V (ξ t) ≤ c ∧ (τ ≤ t → V (ξ t) ≤ b) := by
  have hKc : IsCompact (A ∩ V ⁻¹' Icc b c) := hA.inter_right (isClosed_Icc.preimage hV)
  obtain ⟨δ, hδ, hdec⟩ := uniform_decrease hF hV hKc fun η hη hin =>
    (hL 1 η hη).strictAnti (fun t ht => hneg _ (hin t ht).1 (hin t ht).2.1 ((hin t ht).2.2.trans_lt hcc))
      ⟨le_rfl, zero_le_one⟩ ⟨zero_le_one, le_rfl⟩ zero_lt_one
  obtain ⟨N, hN⟩ := exists_nat_gt ((c - b) / δ)
  refine ⟨N, fun T ξ hξ h0 h1 t ht => ?_⟩
  have hin := (hL T ξ hξ).stay (A := A) (traj_continuousOn hξ) h0 hcc h1 (fun t _ hf => hs _ hf)
    (fun t _ hA h2 h3 => (hneg _ hA (hbc.trans h2) h3).le)
  refine ⟨(hin t ht).1, (hin t ht).2, fun hτ => ?_⟩
  obtain ⟨r, hr, hrb⟩ : ∃ r ∈ Icc 0 t, V (ξ r) ≤ b := by
    by_contra hno
    push Not at hno
    have key : ∀ k : ℕ, (k : ℝ) ≤ t → V (ξ k) ≤ c - k * δ := by
      intro k
      induction k with
      | zero => intro _; simpa using h1
      | succ k ih =>
        intro hk
        push_cast at hk
        have hk0 : (0:ℝ) ≤ k := Nat.cast_nonneg k
        have h2 := traj_restrict hξ (show (k:ℝ) + 1 ≤ T by linarith [ht.2])
        have h3 := traj_shift h2 hk0
        rw [add_sub_cancel_left] at h3
        have h4 := hdec _ h3 (fun r hr => by
          have hr' : (k:ℝ) + r ∈ Icc 0 T := ⟨by linarith [hr.1], by linarith [hr.2, ht.2]⟩
          exact ⟨(hin _ hr').1, (hno _ ⟨hr'.1, by linarith [hr.2]⟩).le, (hin _ hr').2⟩)
        simp only [add_zero] at h4
        have := ih (by linarith)
        push_cast
        linarith
    have h2 := key N hτ
    have h3 := hno N ⟨Nat.cast_nonneg N, hτ⟩
    rw [div_lt_iff₀ hδ] at hN
    linarith
  exact ((hL T ξ hξ).restrict hr.1 le_rfl).fence (lt_of_le_of_lt hbc hcc) hrb (fun s hs' h2 h3 =>
    (hneg _ (hin s ⟨hr.1.trans hs'.1, hs'.2.le⟩).1 h2 h3).le) t ⟨hr.2, ht.2⟩

/-- Attraction without a continuous derivative. -/
theorem attracts_off {V L : Pt n → ℝ} {F : Pt n → Pt n} (hF : Continuous F) (hV : Continuous V) (hL : OffLie F V L)
    {A : Set (Pt n)} (hA : IsCompact A) {c : ℝ}
    (hpos : ∀ p ∈ A, p ≠ 0 → V 0 < V p) (hneg : ∀ p ∈ A, p ≠ 0 → L p < 0)
    (hs : ∀ p ∈ frontier A, c < V p) :
    Attracts F {p | p ∈ A ∧ V p ≤ c} := by
  rcases lt_or_ge c (V 0) with hc | hc
  · intro U _
    refine ⟨0, fun T ξ _ h0 => ?_⟩
    rw [Set.mem_ofPred_eq] at h0
    by_cases e : ξ 0 = 0
    · rw [e] at h0; linarith [h0.2]
    · linarith [hpos _ h0.1 e, h0.2]
  rcases eq_or_lt_of_le hc with hc | hc
  · intro U hU
    refine ⟨0, fun T ξ hξ h0 t ht _ => ?_⟩
    rw [Set.mem_ofPred_eq] at h0
    have h00 : ξ 0 = 0 := by
      by_contra e
      linarith [hpos _ h0.1 e, h0.2]
    have hA0 : (0 : Pt n) ∈ interior A := by
      by_contra hn
      have : (0 : Pt n) ∈ frontier A := ⟨subset_closure (h00 ▸ h0.1), hn⟩
      linarith [hs _ this]
    by_contra hcon
    have hne : ξ t ≠ 0 := fun e => hcon (e ▸ mem_of_mem_nhds hU)
    obtain ⟨W, hW, hst⟩ := stable_off hV hL (mem_interior_iff_mem_nhds.1 hA0) hpos
      (fun p hp hp0 => (hneg p hp hp0).le) {p | p ≠ ξ t} (isOpen_ne.mem_nhds hne.symm)
    exact hst T ξ hξ (h00 ▸ mem_of_mem_nhds hW) t ht rfl
  -- a level above `c` that the frontier still reaches
  obtain ⟨c', hcc, hs'⟩ : ∃ c', c < c' ∧ ∀ p ∈ frontier A, c' ≤ V p := by
    have hfc : IsCompact (frontier A) := hA.of_isClosed_subset isClosed_frontier hA.isClosed.frontier_subset
    rcases (frontier A).eq_empty_or_nonempty with he | he
    · exact ⟨c + 1, by linarith, by rw [he]; simp⟩
    · obtain ⟨q, hq, hmin⟩ := hfc.exists_isMinOn he hV.continuousOn
      refine ⟨V q, hs q hq, fun p hp => ?_⟩
      have := hmin hp
      rwa [Set.mem_ofPred_eq] at this
  intro U hU
  obtain ⟨U', hU'U, hUo, hU0⟩ := mem_nhds_iff.1 hU
  obtain ⟨b, hb0, hbc, hlow⟩ : ∃ b, V 0 < b ∧ b ≤ c ∧ ∀ p ∈ A, p ∉ U' → b < V p := by
    rcases (A \ U').eq_empty_or_nonempty with he | he
    · refine ⟨c, hc, le_rfl, fun p h1 h2 => ?_⟩
      exact absurd (show p ∈ A \ U' from ⟨h1, h2⟩) (by rw [he]; simp)
    · obtain ⟨q, hq, hmin⟩ := (hA.diff hUo).exists_isMinOn he hV.continuousOn
      have hq0 : q ≠ 0 := by rintro rfl; exact hq.2 hU0
      obtain ⟨m, hm1, hm2⟩ := exists_between (hpos q hq.1 hq0)
      refine ⟨min c m, lt_min hc hm1, min_le_left _ _, fun p h1 h2 => ?_⟩
      have := hmin (show p ∈ A \ U' from ⟨h1, h2⟩)
      rw [Set.mem_ofPred_eq] at this
      exact ((min_le_right _ _).trans_lt hm2).trans_le this
  obtain ⟨τ, hτ⟩ := ultimate_off hF hV hL hA hbc hcc (fun p hp h1 _ => hneg p hp (by rintro rfl; linarith)) hs'
  refine ⟨τ, fun T ξ hξ h0 t ht h1 => ?_⟩
  obtain ⟨h2, -, h3⟩ := hτ T ξ hξ h0.1 h0.2 t ht
  by_contra hcon
  exact absurd (hlow _ h2 fun h => hcon (hU'U h)) (not_lt.2 (h3 h1))

theorem asympStable_off {V L : Pt n → ℝ} {F : Pt n → Pt n} (hF : Continuous F) (hV : Continuous V)
    (hL : OffLie F V L) {D : Set (Pt n)} (hD : D ∈ 𝓝 0) (hpos : ∀ p ∈ D, p ≠ 0 → V 0 < V p)
    (hneg : ∀ p ∈ D, p ≠ 0 → L p < 0) : AsympStable F := by
  refine ⟨stable_off hV hL hD hpos fun p hp h0 => (hneg p hp h0).le, ?_⟩
  obtain ⟨R, hR, c, hc, hsub, hs⟩ := exists_level hV hD hpos univ_mem
  refine ⟨_, ?_, attracts_off hF hV hL (isCompact_closedBall (0 : Pt n) R) (c := c) (fun p hp => hpos p (hsub hp).1)
    (fun p hp => hneg p (hsub hp).1) (fun p hp => hs p (by simpa using Metric.frontier_closedBall_subset_sphere hp))⟩
  filter_upwards [Metric.closedBall_mem_nhds (0 : Pt n) hR, (isOpen_Iio.preimage hV).mem_nhds hc] with p h1 h2
  exact ⟨h1, le_of_lt h2⟩

end Fossil

/-
Lyapunov's theorems: a function with a strict minimum at the origin that decreases along the dynamics.
-/
import Verif.Spec.Stability
import Verif.Lemmas.Calc

namespace Fossil
open Spec Set Filter Topology

variable {n : ℕ}

theorem traj_shift {F : Pt n → Pt n} {T t₁ : ℝ} {ξ : ℝ → Pt n} (h : Trajectory F T ξ) (h0 : 0 ≤ t₁) :
    Trajectory F (T - t₁) (fun t => ξ (t₁ + t)) := by
  intro t ht
  have h1 : t₁ + t ∈ Icc 0 T := ⟨by linarith [ht.1], by linarith [ht.2]⟩
  have h2 := (h _ h1).scomp t ((hasDerivWithinAt_id t (Icc 0 (T - t₁))).const_add t₁) (fun r hr => by
    constructor
    · linarith [hr.1]
    · linarith [hr.2])
  simpa [Function.comp_def] using h2

theorem traj_continuousOn {F : Pt n → Pt n} {T : ℝ} {ξ : ℝ → Pt n} (h : Trajectory F T ξ) :
    ContinuousOn ξ (Icc 0 T) := fun t ht => (h t ht).continuousWithinAt

/-- A closed ball around the origin whose boundary sphere lies above a level that the origin is below. -/
theorem exists_level {V : Pt n → ℝ} (hV : Continuous V) {D : Set (Pt n)} (hD : D ∈ 𝓝 0)
    (hpos : ∀ p ∈ D, p ≠ 0 → V 0 < V p) {U : Set (Pt n)} (hU : U ∈ 𝓝 0) :
    ∃ R > 0, ∃ c, V 0 < c ∧ Metric.closedBall 0 R ⊆ D ∩ U ∧ ∀ p : Pt n, ‖p‖ = R → c < V p := by
  obtain ⟨R, hR, hsub⟩ := Metric.nhds_basis_closedBall.mem_iff.1 (inter_mem hD hU)
  have hne : ∀ p : Pt n, ‖p‖ = R → V 0 < V p := fun p hp =>
    hpos p (hsub (by simp [hp])).1 (by rintro rfl; simp at hp; exact hR.ne hp)
  have hc : IsCompact (Metric.sphere (0 : Pt n) R) := isCompact_sphere 0 R
  rcases (Metric.sphere (0 : Pt n) R).eq_empty_or_nonempty with he | he
  · refine ⟨R, hR, V 0 + 1, by linarith, hsub, fun p hp => ?_⟩
    exact absurd (show p ∈ Metric.sphere (0 : Pt n) R by simp [hp]) (by rw [he]; simp)
  · obtain ⟨q, hq, hmin⟩ := hc.exists_isMinOn he hV.continuousOn
    have h1 := hne q (by simpa using hq)
    refine ⟨R, hR, (V 0 + V q) / 2, by linarith, hsub, fun p hp => ?_⟩
    have := hmin (show p ∈ Metric.sphere (0 : Pt n) R by simp [hp])
    rw [Set.mem_ofPred_eq] at this
    linarith

/-- A trajectory that starts in a ball, at or below a level that its sphere lies above, never leaves. -/
theorem stays_in_ball {V L : Pt n → ℝ} {F : Pt n → Pt n} (hL : ∀ p, IsLieDerivAt F V L p)
    {R c : ℝ} (hneg : ∀ p : Pt n, ‖p‖ ≤ R → V p = c → L p < 0) (hs : ∀ p : Pt n, ‖p‖ = R → c < V p)
    {T : ℝ} {ξ : ℝ → Pt n} (hξ : Trajectory F T ξ) (h0 : ‖ξ 0‖ ≤ R) (h1 : V (ξ 0) ≤ c) :
    ∀ t ∈ Icc 0 T, ‖ξ t‖ ≤ R ∧ V (ξ t) ≤ c := by
  have key := stay_in_set (A := Metric.closedBall (0 : Pt n) R) (g := fun t => V (ξ t)) (g' := fun t => L (ξ t)) (c := c)
    (traj_continuousOn hξ) (fun t ht => hL (ξ t) ξ _ t rfl (hξ t ht)) (by simpa using h0) h1
    (fun t _ hf => hs _ (by simpa using Metric.frontier_closedBall_subset_sphere hf))
    (fun t _ hA e => hneg _ (by simpa using hA) e)
  intro t ht
  obtain ⟨a, b⟩ := key t ht
  exact ⟨by simpa using a, b⟩

/-- Lyapunov's stability theorem. -/
theorem stable_of {V L : Pt n → ℝ} {F : Pt n → Pt n} (hV : Continuous V) (hL : ∀ p, IsLieDerivAt F V L p)
    {D : Set (Pt n)} (hD : D ∈ 𝓝 0) (hpos : ∀ p ∈ D, p ≠ 0 → V 0 < V p) (hneg : ∀ p ∈ D, p ≠ 0 → L p < 0) :
    Stable F := by
  intro U hU
  obtain ⟨R, hR, c, hc, hsub, hs⟩ := exists_level hV hD hpos hU
  refine ⟨Metric.closedBall 0 R ∩ {p | V p < c}, inter_mem (Metric.closedBall_mem_nhds _ hR)
    ((isOpen_Iio.preimage hV).mem_nhds hc), fun T ξ hξ h0 t ht => ?_⟩
  have := stays_in_ball hL (R := R) (c := c) (fun p hp e => hneg p (hsub (by simpa using hp)).1
    (by rintro rfl; exact hc.ne e)) hs hξ (by simpa using h0.1) (le_of_lt h0.2) t ht
  exact (hsub (by simpa using this.1)).2

/-- Ultimate boundedness: inside a compact set whose frontier lies above a level `c`, with the derivative negative between the
levels `b` and `c`, trajectories stay and are below `b` after a common time. -/
theorem ultimate_of {V L : Pt n → ℝ} {F : Pt n → Pt n} (hV : Continuous V) (hL : ∀ p, IsLieDerivAt F V L p)
    (hLc : Continuous L) {A : Set (Pt n)} (hA : IsCompact A) {b c : ℝ} (hbc : b ≤ c)
    (hneg : ∀ p ∈ A, b ≤ V p → V p ≤ c → L p < 0) (hs : ∀ p ∈ frontier A, c < V p) :
    ∃ τ : ℝ, ∀ (T : ℝ) (ξ : ℝ → Pt n), Trajectory F T ξ → ξ 0 ∈ A → V (ξ 0) ≤ c → ∀ t ∈ Icc 0 T,
      ξ t ∈ A ∧ V (ξ t) ≤ c ∧ (τ ≤ t → V (ξ t) < b) := by
  set K : Set (Pt n) := A ∩ V ⁻¹' Icc b c with hK
  have hKc : IsCompact K := hA.inter_right (isClosed_Icc.preimage hV)
  obtain ⟨γ, hγ, hdec⟩ : ∃ γ > 0, ∀ p ∈ K, L p ≤ -γ := by
    rcases K.eq_empty_or_nonempty with he | he
    · exact ⟨1, one_pos, by rw [he]; simp⟩
    · obtain ⟨q, hq, hmax⟩ := hKc.exists_isMaxOn he hLc.continuousOn
      refine ⟨-L q, by linarith [hneg q hq.1 hq.2.1 hq.2.2], fun p hp => ?_⟩
      have := hmax hp
      rw [Set.mem_ofPred_eq] at this
      linarith
  refine ⟨(c - b) / γ + 1, fun T ξ hξ h0 h1 t ht => ?_⟩
  have hd : ∀ t ∈ Icc 0 T, HasDerivWithinAt (fun τ => V (ξ τ)) (L (ξ t)) (Icc 0 T) t := fun t ht =>
    hL (ξ t) ξ _ t rfl (hξ t ht)
  have hin := stay_in_set (A := A) (c := c) (traj_continuousOn hξ) hd h0 h1 (fun t _ hf => hs _ hf)
    (fun t _ hA e => hneg _ hA (by linarith [hbc]) (le_of_eq e))
  refine ⟨(hin t ht).1, (hin t ht).2, fun hτ => ?_⟩
  obtain ⟨r, hr, hrb⟩ : ∃ r ∈ Icc 0 t, V (ξ r) < b := by
    by_contra hno
    push Not at hno
    have hrate := rate_le (k := -γ) (deriv_restrict hd le_rfl ht.2) (fun r hr => hdec _ ⟨
      (hin r ⟨hr.1, hr.2.le.trans ht.2⟩).1, hno r ⟨hr.1, hr.2.le⟩, (hin r ⟨hr.1, hr.2.le.trans ht.2⟩).2⟩) t ⟨ht.1, le_rfl⟩
    have h2 := hno t ⟨ht.1, le_rfl⟩
    have h4 : (c - b) < γ * t := by
      have : (c - b) / γ < t := by linarith
      rw [div_lt_iff₀ hγ] at this
      linarith
    simp only [sub_zero] at hrate
    linarith
  refine fence_lt (deriv_restrict hd hr.1 le_rfl) hrb (fun s hs' e => ?_) t ⟨hr.2, ht.2⟩
  have h3 := hin s ⟨hr.1.trans hs'.1, hs'.2⟩
  exact hneg _ h3.1 (le_of_eq e.symm) h3.2

/-- Lyapunov's theorem on attraction: the part of a compact set below a level that its whole frontier lies above is attracted,
and never left. -/
theorem attracts_of {V L : Pt n → ℝ} {F : Pt n → Pt n} (hV : Continuous V) (hL : ∀ p, IsLieDerivAt F V L p)
    (hLc : Continuous L) {A : Set (Pt n)} (hA : IsCompact A) {c : ℝ}
    (hpos : ∀ p ∈ A, p ≠ 0 → V 0 < V p) (hneg : ∀ p ∈ A, p ≠ 0 → L p < 0)
    (hs : ∀ p ∈ frontier A, c < V p) :
    Attracts F {p | p ∈ A ∧ V p ≤ c} := by
  rcases lt_or_ge c (V 0) with hc | hc
  · -- nothing is below the level
    intro U _
    refine ⟨0, fun T ξ _ h0 => ?_⟩
    rw [Set.mem_ofPred_eq] at h0
    by_cases e : ξ 0 = 0
    · rw [e] at h0; linarith [h0.2]
    · linarith [hpos _ h0.1 e, h0.2]
  rcases eq_or_lt_of_le hc with hc | hc
  · -- only the origin is at the level; it is an equilibrium inside `A`
    intro U hU
    refine ⟨0, fun T ξ hξ h0 t ht _ => ?_⟩
    rw [Set.mem_ofPred_eq] at h0
    have h00 : ξ 0 = 0 := by
      by_contra e
      linarith [hpos _ h0.1 e, h0.2]
    have hA0 : (0 : Pt n) ∈ interior A := by
      by_contra hn
      have : (0 : Pt n) ∈ frontier A := ⟨subset_closure (h00 ▸ h0.1), hn⟩
      linarith [hs _ this]
    by_contra hcon
    have hne : ξ t ≠ 0 := fun e => hcon (e ▸ mem_of_mem_nhds hU)
    obtain ⟨W, hW, hst⟩ := stable_of hV hL (mem_interior_iff_mem_nhds.1 hA0) hpos hneg {p | p ≠ ξ t}
      (isOpen_ne.mem_nhds hne.symm)
    exact hst T ξ hξ (h00 ▸ mem_of_mem_nhds hW) t ht rfl
  intro U hU
  obtain ⟨U', hU'U, hUo, hU0⟩ := mem_nhds_iff.1 hU
  obtain ⟨b, hb0, hbc, hlow⟩ : ∃ b, V 0 < b ∧ b ≤ c ∧ ∀ p ∈ A, p ∉ U' → b ≤ V p := by
    rcases (A \ U').eq_empty_or_nonempty with he | he
    · refine ⟨c, hc, le_rfl, fun p h1 h2 => ?_⟩
      exact absurd (show p ∈ A \ U' from ⟨h1, h2⟩) (by rw [he]; simp)
    · obtain ⟨q, hq, hmin⟩ := (hA.diff hUo).exists_isMinOn he hV.continuousOn
      have hq0 : q ≠ 0 := by rintro rfl; exact hq.2 hU0
      refine ⟨min c (V q), lt_min hc (hpos q hq.1 hq0), min_le_left _ _, fun p h1 h2 => ?_⟩
      have := hmin (show p ∈ A \ U' from ⟨h1, h2⟩)
      rw [Set.mem_ofPred_eq] at this
      exact (min_le_right _ _).trans this
  obtain ⟨τ, hτ⟩ := ultimate_of hV hL hLc hA hbc (fun p hp h1 _ => hneg p hp (by rintro rfl; linarith)) hs
  refine ⟨τ, fun T ξ hξ h0 t ht h1 => ?_⟩
  obtain ⟨h2, -, h3⟩ := hτ T ξ hξ h0.1 h0.2 t ht
  by_contra hcon
  exact absurd (hlow _ h2 fun h => hcon (hU'U h)) (not_le.2 (h3 h1))

theorem asympStable_of {V L : Pt n → ℝ} {F : Pt n → Pt n} (hV : Continuous V) (hL : ∀ p, IsLieDerivAt F V L p)
    (hLc : Continuous L) {D : Set (Pt n)} (hD : D ∈ 𝓝 0) (hpos : ∀ p ∈ D, p ≠ 0 → V 0 < V p)
    (hneg : ∀ p ∈ D, p ≠ 0 → L p < 0) : AsympStable F := by
  refine ⟨stable_of hV hL hD hpos hneg, ?_⟩
  obtain ⟨R, hR, c, hc, hsub, hs⟩ := exists_level hV hD hpos univ_mem
  refine ⟨_, ?_, attracts_of hV hL hLc (isCompact_closedBall (0 : Pt n) R) (c := c) (fun p hp => hpos p (hsub hp).1)
    (fun p hp => hneg p (hsub hp).1) (fun p hp => hs p (by simpa using Metric.frontier_closedBall_subset_sphere hp))⟩
  filter_upwards [Metric.closedBall_mem_nhds (0 : Pt n) hR, (isOpen_Iio.preimage hV).mem_nhds hc] with p h1 h2
  exact ⟨h1, le_of_lt h2⟩

/-! ### discrete time -/

/-- A ball around the origin and a level such that the part of the ball below the level is invariant. -/
theorem exists_invariant {V : Pt n → ℝ} {F : Pt n → Pt n} (hV : Continuous V) (hF : ContinuousAt F 0) (hF0 : F 0 = 0)
    {D : Set (Pt n)} (hD : D ∈ 𝓝 0) (hpos : ∀ p ∈ D, p ≠ 0 → V 0 < V p) (hneg : ∀ p ∈ D, p ≠ 0 → V (F p) < V p)
    {U : Set (Pt n)} (hU : U ∈ 𝓝 0) :
    ∃ r > 0, ∃ c, V 0 < c ∧ Metric.closedBall 0 r ⊆ D ∩ U ∧
      ∀ p : Pt n, ‖p‖ ≤ r → V p < c → ‖F p‖ ≤ r ∧ V (F p) < c := by
  obtain ⟨R, hR, hsub⟩ := Metric.nhds_basis_closedBall.mem_iff.1 (inter_mem hD hU)
  have hFR : F ⁻¹' Metric.closedBall 0 R ∈ 𝓝 (0 : Pt n) := hF.preimage_mem_nhds (by
    rw [hF0]; exact Metric.closedBall_mem_nhds _ hR)
  obtain ⟨r₀, hr₀, hr₀F⟩ := Metric.nhds_basis_closedBall.mem_iff.1 hFR
  set r := min r₀ R with hr
  have hrp : 0 < r := lt_min hr₀ hR
  have hcomp : IsCompact (Metric.closedBall (0 : Pt n) R \ Metric.ball 0 r) :=
    (isCompact_closedBall 0 R).diff Metric.isOpen_ball
  obtain ⟨c, hc, hlow⟩ : ∃ c, V 0 < c ∧ ∀ p : Pt n, ‖p‖ ≤ R → r ≤ ‖p‖ → c ≤ V p := by
    rcases (Metric.closedBall (0 : Pt n) R \ Metric.ball 0 r).eq_empty_or_nonempty with he | he
    · refine ⟨V 0 + 1, by linarith, fun p h1 h2 => ?_⟩
      exact absurd (show p ∈ Metric.closedBall (0 : Pt n) R \ Metric.ball 0 r by simp [h1, h2]) (by rw [he]; simp)
    · obtain ⟨q, hq, hmin⟩ := hcomp.exists_isMinOn he hV.continuousOn
      have hq0 : q ≠ 0 := by rintro rfl; simp [hrp] at hq
      refine ⟨V q, hpos q (hsub hq.1).1 hq0, fun p h1 h2 => ?_⟩
      have := hmin (show p ∈ Metric.closedBall (0 : Pt n) R \ Metric.ball 0 r by simp [h1, h2])
      rwa [Set.mem_ofPred_eq] at this
  have hrR : r ≤ R := min_le_right _ _
  refine ⟨r, hrp, c, hc, (Metric.closedBall_subset_closedBall hrR).trans hsub, fun p hp hv => ?_⟩
  have hFp : ‖F p‖ ≤ R := by
    have := hr₀F (show p ∈ Metric.closedBall (0 : Pt n) r₀ by simpa using hp.trans (min_le_left _ _))
    simpa using this
  have hVF : V (F p) < c := by
    by_cases e : p = 0
    · rw [e, hF0]; exact hc
    · exact (hneg p (hsub (by simpa using hp.trans hrR)).1 e).trans hv
  refine ⟨?_, hVF⟩
  by_contra hcon
  exact absurd (hlow _ hFp (not_le.1 hcon).le) (not_le.2 hVF)

theorem stableDT_of {V : Pt n → ℝ} {F : Pt n → Pt n} (hV : Continuous V) (hF : ContinuousAt F 0) (hF0 : F 0 = 0)
    {D : Set (Pt n)} (hD : D ∈ 𝓝 0) (hpos : ∀ p ∈ D, p ≠ 0 → V 0 < V p) (hneg : ∀ p ∈ D, p ≠ 0 → V (F p) < V p) :
    StableDT F := by
  intro U hU
  obtain ⟨r, hr, c, hc, hsub, hinv⟩ := exists_invariant hV hF hF0 hD hpos hneg hU
  refine ⟨Metric.closedBall 0 r ∩ {p | V p < c}, inter_mem (Metric.closedBall_mem_nhds _ hr)
    ((isOpen_Iio.preimage hV).mem_nhds hc), fun x hx h0 k => ?_⟩
  have : ∀ k, ‖x k‖ ≤ r ∧ V (x k) < c := by
    intro k
    induction k with
    | zero => exact ⟨by simpa using h0.1, h0.2⟩
    | succ k ih => rw [hx k]; exact hinv _ ih.1 ih.2
  exact (hsub (by simpa using (this k).1)).2

theorem asympStableDT_of {V : Pt n → ℝ} {F : Pt n → Pt n} (hV : Continuous V) (hF : Continuous F) (hF0 : F 0 = 0)
    {D : Set (Pt n)} (hD : D ∈ 𝓝 0) (hpos : ∀ p ∈ D, p ≠ 0 → V 0 < V p) (hneg : ∀ p ∈ D, p ≠ 0 → V (F p) < V p) :
    AsympStableDT F := by
  have hst := stableDT_of hV hF.continuousAt hF0 hD hpos hneg
  refine ⟨hst, ?_⟩
  obtain ⟨r, hr, c, hc, hsub, hinv⟩ := exists_invariant hV hF.continuousAt hF0 hD hpos hneg univ_mem
  refine ⟨Metric.closedBall 0 r ∩ {p | V p < c}, inter_mem (Metric.closedBall_mem_nhds _ hr)
    ((isOpen_Iio.preimage hV).mem_nhds hc), fun U hU => ?_⟩
  obtain ⟨W, hW, hstab⟩ := hst U hU
  obtain ⟨W', hW'W, hWo, hW0⟩ := mem_nhds_iff.1 hW
  have hKc : IsCompact (Metric.closedBall (0 : Pt n) r \ W') := (isCompact_closedBall 0 r).diff hWo
  obtain ⟨γ, hγ, hdec⟩ : ∃ γ > 0, ∀ p ∈ Metric.closedBall (0 : Pt n) r \ W', V (F p) ≤ V p - γ := by
    rcases (Metric.closedBall (0 : Pt n) r \ W').eq_empty_or_nonempty with he | he
    · exact ⟨1, one_pos, by rw [he]; simp⟩
    · obtain ⟨q, hq, hmax⟩ := hKc.exists_isMaxOn he ((hV.comp hF).sub hV).continuousOn
      have hq0 : q ≠ 0 := by rintro rfl; exact hq.2 hW0
      refine ⟨V q - V (F q), by linarith [hneg q (hsub hq.1).1 hq0], fun p hp => ?_⟩
      have := hmax hp
      rw [Set.mem_ofPred_eq] at this
      simp only [Function.comp, Pi.sub_apply] at this
      linarith
  obtain ⟨N, hN⟩ := exists_nat_gt ((c - V 0) / γ)
  refine ⟨N, fun x hx h0 k hk => ?_⟩
  have hin : ∀ k, ‖x k‖ ≤ r ∧ V (x k) < c := by
    intro k
    induction k with
    | zero => exact ⟨by simpa using h0.1, h0.2⟩
    | succ k ih => rw [hx k]; exact hinv _ ih.1 ih.2
  obtain ⟨j, hj, hjW⟩ : ∃ j ≤ N, x j ∈ W' := by
    by_contra hno
    push Not at hno
    have hrate : ∀ j ≤ N, V (x j) ≤ V (x 0) - γ * j := by
      intro j
      induction j with
      | zero => simp
      | succ j ih =>
        intro hj
        have h1 := ih (by omega)
        have h2 := hdec (x j) ⟨by simpa using (hin j).1, hno j (by omega)⟩
        rw [hx j]; push_cast; linarith
    have h1 := hrate N le_rfl
    have hVt : V 0 ≤ V (x N) := by
      by_cases e : x N = 0
      · rw [e]
      · exact (hpos _ (hsub (by simpa using (hin N).1)).1 e).le
    have h3 : V (x 0) < c := h0.2
    rw [div_lt_iff₀ hγ] at hN
    linarith
  have := hstab (fun i => x (j + i)) (fun i => by simpa [add_assoc] using hx (j + i)) (by simpa using hW'W hjW) (k - j)
  simpa [Nat.add_sub_cancel' (hj.trans hk)] using this

end Fossil

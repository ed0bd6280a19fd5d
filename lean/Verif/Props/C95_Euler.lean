/-
C95: Euler simulations. With short enough steps, equal or not, the explicit Euler method run on the verified model keeps the verified guarantee, also when the steps are computed with small errors.
-/
import Verif.Props.C94_Held
import Verif.Benchmarks

namespace Fossil
open Spec Set Filter Topology

variable {R K : Type} {n m : ℕ}

namespace Spec

/-- The explicit Euler method with step lengths `η 0, η 1, …`. -/
def EulerRun (F : Pt n → Pt n) (η : ℕ → ℝ) (x : ℕ → Pt n) : Prop := ∀ k, x (k + 1) = x k + η k • F (x k)

/-- The simulated time after `N` steps. -/
def clock (η : ℕ → ℝ) (N : ℕ) : ℝ := ∑ k ∈ Finset.range N, η k

/-- The broken line through the first points of the simulation, up to `x N`. -/
def brokenLine (x : ℕ → Pt n) (N : ℕ) : Set (Pt n) := {p | p = x N ∨ ∃ j < N, p ∈ _root_.segment ℝ (x j) (x (j + 1))}

/-- An Euler simulation with steps of length at most `h`, each computed with an error (from rounding, say) of at most `h` in each component, relative to the length of the step. -/
def Simulates (F : Pt n → Pt n) (h : ℝ) (η : ℕ → ℝ) (x : ℕ → Pt n) : Prop :=
  (∀ k, 0 < η k ∧ η k ≤ h) ∧ ∀ k i, |x (k + 1) i - (x k i + η k * F (x k) i)| ≤ h * η k

/-- What a verified region of attraction means for simulations: as `TolerantRegion`. -/
structure SimulatedRegion (F : Pt n → Pt n) (V : Pt n → ℝ) (level : ℝ) (I : Set (Pt n)) : Prop where
  covers : ∀ p ∈ I, V p ≤ level
  settles : ∀ A : Set (Pt n), IsCompact A → ∀ b : ℝ, b ≤ level → (∀ p ∈ A, normSq p ≤ (1/100)^2 → V p < b) → (∀ p ∈ frontier A, level < V p) →
    ∃ h > 0, ∃ τ : ℝ, ∀ η x, Simulates F h η x → x 0 ∈ A → V (x 0) ≤ level →
      ∀ N, x N ∈ A ∧ V (x N) ≤ level ∧ (τ ≤ clock η N → V (x N) ≤ b)

/-- What a Lyapunov certificate `V` verified on `D` means for simulations: as `ToleratesOn`. -/
structure SimulatedOn (F : Pt n → Pt n) (V : Pt n → ℝ) (D : Set (Pt n)) : Prop where
  descends : ∀ C : Set (Pt n), IsCompact C → (∀ p ∈ C, p ∈ D ∧ p ≠ 0) → ∃ h > 0, ∃ δ > 0, ∀ η x, Simulates F h η x →
    ∀ N, brokenLine x (N + 1) ⊆ C → V (x (N + 1)) ≤ V (x N) - δ * η N
  settles : ∀ A H : Set (Pt n), IsCompact A → (∀ p ∈ A, p ∉ H → p ∈ D ∧ p ≠ 0) → ∀ b c l : ℝ, b ≤ c → c < l → (∀ p ∈ A, p ∈ H → V p < b) →
    (∀ p ∈ frontier A, l ≤ V p) → ∃ h > 0, ∃ τ : ℝ, ∀ η x, Simulates F h η x → x 0 ∈ A → V (x 0) ≤ c →
      ∀ N, x N ∈ A ∧ V (x N) ≤ c ∧ (τ ≤ clock η N → V (x N) ≤ b)

end Spec

theorem clock_succ (η : ℕ → ℝ) (N : ℕ) : clock η (N + 1) = clock η N + η N := Finset.sum_range_succ _ _

theorem clock_nonneg {η : ℕ → ℝ} (h : ∀ k, 0 < η k) (N : ℕ) : 0 ≤ clock η N := Finset.sum_nonneg fun k _ => (h k).le

theorem clock_mono {η : ℕ → ℝ} (h : ∀ k, 0 < η k) : StrictMono (clock η) := strictMono_nat_of_lt_succ fun N => by
  rw [clock_succ]; linarith [h N]

theorem brokenLine_mono (x : ℕ → Pt n) {N M : ℕ} (h : N ≤ M) : brokenLine x N ⊆ brokenLine x M := by
  rintro p (rfl | ⟨j, hj, hp⟩)
  · rcases h.eq_or_lt with rfl | h
    · exact Or.inl rfl
    · exact Or.inr ⟨N, h, left_mem_segment ℝ _ _⟩
  · exact Or.inr ⟨j, hj.trans_le h, hp⟩

theorem brokenLine_mem (x : ℕ → Pt n) {j N : ℕ} (h : j ≤ N) : x j ∈ brokenLine x N := brokenLine_mono x h (Or.inl rfl)

/-- In a convex domain (rectangles, spheres) only the points of the simulation need to be looked at. -/
theorem brokenLine_subset {x : ℕ → Pt n} {D : Set (Pt n)} (hD : Convex ℝ D) {N : ℕ} (h : ∀ j ≤ N, x j ∈ D) : brokenLine x N ⊆ D := by
  rintro p (rfl | ⟨j, hj, hp⟩)
  · exact h N le_rfl
  · exact hD.segment_subset (h j hj.le) (h (j + 1) hj) hp

/-- Exact simulations are a case. -/
theorem simulates_of_euler {F : Pt n → Pt n} {h : ℝ} {η : ℕ → ℝ} {x : ℕ → Pt n} (hη : ∀ k, 0 < η k ∧ η k ≤ h) (hx : EulerRun F η x) : Simulates F h η x :=
  ⟨hη, fun k i => by
    rw [hx k]
    simpa using mul_nonneg ((hη k).1.le.trans (hη k).2) (hη k).1.le⟩

/-- The broken line through the points of an Euler run, as a curve: the velocity is, up to the errors, the one at the last point passed. -/
theorem euler_curve {F : Pt n → Pt n} {h : ℝ} {η : ℕ → ℝ} {x : ℕ → Pt n} (hx : Simulates F h η x) (N : ℕ) :
    ∃ ξ : ℝ → Pt n, Held (fun _ u => u) F h (clock η N) ξ ∧ (∀ j ≤ N, ξ (clock η j) = x j) ∧
      (∀ j ≤ N, ∀ t ∈ Icc 0 (clock η j), ξ t ∈ brokenLine x j) ∧ ∀ p ∈ brokenLine x N, ∃ t ∈ Icc 0 (clock η N), ξ t = p := by
  have hpos : ∀ k, 0 < η k := fun k => (hx.1 k).1
  -- the velocity of the simulation in step `k`
  obtain ⟨v, hx2, hvF⟩ : ∃ v : ℕ → Pt n, (∀ k, x (k + 1) = x k + η k • v k) ∧ ∀ k i, |v k i - F (x k) i| ≤ h := by
    refine ⟨fun k => (η k)⁻¹ • (x (k + 1) - x k), fun k => ?_, fun k i => ?_⟩
    · rw [smul_smul, mul_inv_cancel₀ (hpos k).ne', one_smul, add_sub_cancel]
    · have e : ((η k)⁻¹ • (x (k + 1) - x k)) i - F (x k) i = (η k)⁻¹ * (x (k + 1) i - (x k i + η k * F (x k) i)) := by
        simp only [Pi.smul_apply, Pi.sub_apply, smul_eq_mul]
        field_simp [(hpos k).ne']
        ring
      rw [e, abs_mul, abs_of_pos (inv_pos.2 (hpos k)), inv_mul_le_iff₀ (hpos k)]
      exact (hx.2 k i).trans_eq (mul_comm _ _)
  induction N with
  | zero =>
    refine ⟨fun _ => x 0, ⟨continuousOn_const, fun t ht => ?_⟩, fun j hj => ?_, fun j hj t _ => ?_, fun p hp => ?_⟩
    · have e : clock η 0 = 0 := rfl
      rw [e] at ht
      exact absurd ht.2 (not_lt.2 ht.1)
    · rw [Nat.le_zero.1 hj]
    · rw [Nat.le_zero.1 hj]; exact Or.inl rfl
    · rcases hp with rfl | ⟨j, hj, -⟩
      · exact ⟨0, ⟨le_rfl, le_rfl⟩, rfl⟩
      · exact absurd hj (Nat.not_lt_zero j)
  | succ N ih =>
    obtain ⟨ξ, ⟨hc, hd⟩, hv, hl, hon⟩ := ih
    have hN := hv N le_rfl
    generalize ha : clock η N = a at *
    have ha0 : 0 ≤ a := ha ▸ clock_nonneg hpos N
    have hstep : clock η (N + 1) = a + η N := by rw [clock_succ, ha]
    rw [hstep]
    let ξ' : ℝ → Pt n := fun t => if t < a then ξ t else x N + (t - a) • v N
    have hlt : ∀ t, t < a → ξ' t = ξ t := fun t ht => if_pos ht
    have hge : ∀ t, a ≤ t → ξ' t = x N + (t - a) • v N := fun t ht => if_neg (not_lt.2 ht)
    have hat : ξ' a = x N := by rw [hge a le_rfl]; simp
    have hle : ∀ t, t ≤ a → ξ' t = ξ t := fun t ht => by
      rcases ht.eq_or_lt with e | e
      · rw [e, hat, hN]
      · exact hlt t e
    refine ⟨ξ', ⟨?_, fun t ht => ?_⟩, fun j hj => ?_, fun j hj t ht => ?_, fun p hp => ?_⟩
    · rw [← Icc_union_Icc_eq_Icc ha0 (by linarith [hpos N] : a ≤ a + η N)]
      refine ContinuousOn.union_of_isClosed (hc.congr fun t ht => hle t ht.2) ?_ isClosed_Icc isClosed_Icc
      refine ContinuousOn.congr (f := fun t => x N + (t - a) • v N) (by fun_prop) fun t ht => hge t ht.1
    · rcases lt_or_ge t a with e | e
      · obtain ⟨s, hs, hst, q, hq, u, hu, hsd⟩ := hd t ⟨ht.1, e⟩
        refine ⟨s, hs, hst, q, by rw [hle s (hs.2.trans e.le)]; exact hq, u, hu, ?_⟩
        refine hsd.congr_of_eventuallyEq ?_ (hlt t e)
        filter_upwards [mem_nhdsWithin_of_mem_nhds (Iio_mem_nhds e)] with q hq using hlt q hq
      · have h0 : 0 ≤ h := (hx.1 N).1.le.trans (hx.1 N).2
        refine ⟨a, ⟨ha0, e⟩, by linarith [ht.2, (hx.1 N).2], x N, fun i => by rw [hat]; simpa using h0, v N, fun i => hvF N i, ?_⟩
        show HasDerivWithinAt ξ' (v N) (Ici t) t
        have h1 : HasDerivWithinAt (fun q : ℝ => x N + (q - a) • v N) (v N) (Ici t) t := by
          have := ((((hasDerivAt_id t).sub_const a).smul_const (v N)).const_add (x N)).hasDerivWithinAt (s := Ici t)
          simpa using this
        exact h1.congr (fun q hq => hge q (e.trans hq)) (hge t e)
    · rcases Nat.lt_or_ge j (N + 1) with e | e
      · have hj' : j ≤ N := Nat.lt_succ_iff.1 e
        rw [hle _ (ha ▸ (clock_mono hpos).monotone hj'), hv j hj']
      · have : j = N + 1 := le_antisymm hj e
        rw [this, hstep, hge _ (by linarith [hpos N]), hx2 N]
        simp
    · rcases Nat.lt_or_ge j (N + 1) with e | e
      · have hj' : j ≤ N := Nat.lt_succ_iff.1 e
        rw [hle t (ht.2.trans (ha ▸ (clock_mono hpos).monotone hj'))]
        exact hl j hj' t ht
      · have : j = N + 1 := le_antisymm hj e
        rw [this, hstep] at ht
        rw [this]
        rcases le_total t a with e' | e'
        · rw [hle t e']
          exact brokenLine_mono x (Nat.le_succ N) (hl N le_rfl t ⟨ht.1, by rw [ha]; exact e'⟩)
        · refine Or.inr ⟨N, Nat.lt_succ_self N, ?_⟩
          rw [hge t e', segment_eq_image', hx2 N]
          refine ⟨(t - a) / η N, ⟨div_nonneg (by linarith) (hpos N).le, by rw [div_le_one (hpos N)]; linarith [ht.2]⟩, ?_⟩
          simp only [add_sub_cancel_left, smul_smul]
          rw [div_mul_cancel₀ _ (hpos N).ne']
    · have hpN := hpos N
      rcases hp with rfl | ⟨j, hj, hp⟩
      · exact ⟨a + η N, ⟨by linarith, le_rfl⟩, by rw [hge _ (by linarith), hx2 N]; simp⟩
      · rcases Nat.lt_or_ge j N with e | e
        · obtain ⟨t, ht, htp⟩ := hon p (Or.inr ⟨j, e, hp⟩)
          exact ⟨t, ⟨ht.1, ht.2.trans (by linarith)⟩, by rw [hle t ht.2, htp]⟩
        · obtain rfl : j = N := by omega
          rw [segment_eq_image', hx2 j] at hp
          obtain ⟨θ, hθ, rfl⟩ := hp
          have h1 : θ * η j ≤ 1 * η j := mul_le_mul_of_nonneg_right hθ.2 hpN.le
          have h2 : 0 ≤ θ * η j := mul_nonneg hθ.1 hpN.le
          refine ⟨a + θ * η j, ⟨by linarith, by linarith⟩, ?_⟩
          rw [hge _ (by linarith)]
          simp only [add_sub_cancel_left, smul_smul]

/-! ### from a margin to a step length -/

theorem id_continuous : Continuous (fun z : Pt n × Pt n => (fun (_ u : Pt n) => u) z.1 z.2) := continuous_snd

/-- Safety inside a compact domain. -/
theorem euler_safe {F : Pt n → Pt n} (hF : Continuous F) {I D U : Set (Pt n)} (hD : IsCompact D)
    (h : ∃ ε > 0, ∀ (T : ℝ) (ξ : ℝ → Pt n), Disturbed F ε T ξ → ξ 0 ∈ I → (∀ t ∈ Icc 0 T, ξ t ∈ D) → ∀ t ∈ Icc 0 T, ξ t ∉ U) :
    ∃ h > 0, ∀ η x, Simulates F h η x → x 0 ∈ I → ∀ N, brokenLine x N ⊆ D → ∀ p ∈ brokenLine x N, p ∉ U := by
  obtain ⟨h, hh, key⟩ := held_safe id_continuous hF hD (F := fun _ u => u) h
  refine ⟨h, hh, fun η x hx h0 N hin p hp => ?_⟩
  obtain ⟨ξ, hξ, hv, hl, hon⟩ := euler_curve hx N
  have e0 : ξ 0 = x 0 := hv 0 (Nat.zero_le N)
  obtain ⟨t, ht, rfl⟩ := hon p hp
  exact key _ ξ hξ (e0 ▸ h0) (fun t ht => hin (hl N le_rfl t ht)) t ht

/-- Reaching a goal while staying in a bounded set. -/
theorem euler_reach {F : Pt n → Pt n} (hF : Continuous F) {I S G : Set (Pt n)} (hS : Bornology.IsBounded S) (hI : I ⊆ S)
    (h : ∃ ε > 0, ∃ τ : ℝ, ∀ (T : ℝ) (ξ : ℝ → Pt n), Disturbed F ε T ξ → ξ 0 ∈ I →
      (τ ≤ T → ∃ t ∈ Icc 0 τ, ξ t ∈ G) ∧ ∀ t ∈ Icc 0 T, ξ t ∈ S ∨ ∃ r ∈ Icc 0 t, ξ r ∈ G) :
    ∃ h > 0, ∃ τ : ℝ, ∀ η x, Simulates F h η x → x 0 ∈ I → ∀ N,
      (τ ≤ clock η N → ∃ p ∈ brokenLine x N, p ∈ G) ∧ (brokenLine x N ⊆ S ∨ ∃ p ∈ brokenLine x N, p ∈ G) := by
  obtain ⟨h, hh, τ, key⟩ := held_reach id_continuous hF hS hI (F := fun _ u => u) h
  refine ⟨h, hh, τ, fun η x hx h0 N => ?_⟩
  obtain ⟨ξ, hξ, hv, hl, hon⟩ := euler_curve hx N
  have e0 : ξ 0 = x 0 := hv 0 (Nat.zero_le N)
  obtain ⟨h1, h2⟩ := key _ ξ hξ (e0 ▸ h0)
  refine ⟨fun hτ => ?_, ?_⟩
  · obtain ⟨t, ht, hg⟩ := h1 hτ
    exact ⟨_, hl N le_rfl t ⟨ht.1, ht.2.trans hτ⟩, hg⟩
  · by_cases hG : ∃ p ∈ brokenLine x N, p ∈ G
    · exact Or.inr hG
    · refine Or.inl fun p hp => ?_
      obtain ⟨t, ht, rfl⟩ := hon p hp
      rcases h2 t ht with h3 | ⟨r, hr, h3⟩
      · exact h3
      · exact absurd ⟨_, hl N le_rfl r ⟨hr.1, hr.2.trans ht.2⟩, h3⟩ hG

/-- Reaching and staying. -/
theorem euler_stay {F : Pt n → Pt n} (hF : Continuous F) {I S G : Set (Pt n)} (hS : Bornology.IsBounded S) (hI : I ⊆ S)
    (h : ∃ ε > 0, ∃ τ : ℝ, ∀ (T : ℝ) (ξ : ℝ → Pt n), Disturbed F ε T ξ → ξ 0 ∈ I →
      (τ ≤ T → ∃ t₁ ∈ Icc 0 τ, ∀ t ∈ Icc t₁ T, ξ t ∈ G) ∧ ∀ t ∈ Icc 0 T, ξ t ∈ S) :
    ∃ h > 0, ∃ τ : ℝ, ∀ η x, Simulates F h η x → x 0 ∈ I → ∀ N, brokenLine x N ⊆ S ∧ (τ ≤ clock η N → x N ∈ G) := by
  obtain ⟨h, hh, τ, key⟩ := held_stay id_continuous hF hS hI (F := fun _ u => u) (P := fun τ T ξ => τ ≤ T → ∃ t₁ ∈ Icc 0 τ, ∀ t ∈ Icc t₁ T, ξ t ∈ G) h
  refine ⟨h, hh, τ, fun η x hx h0 N => ?_⟩
  obtain ⟨ξ, hξ, hv, hl, hon⟩ := euler_curve hx N
  have e0 : ξ 0 = x 0 := hv 0 (Nat.zero_le N)
  obtain ⟨h1, h2⟩ := key _ ξ hξ (e0 ▸ h0)
  have hN := hv N le_rfl
  refine ⟨fun p hp => ?_, fun hτ => ?_⟩
  · obtain ⟨t, ht, rfl⟩ := hon p hp
    exact h2 t ht
  obtain ⟨t, ht, hg⟩ := h1 hτ
  exact hN ▸ hg _ ⟨ht.2.trans hτ, le_rfl⟩

/-- Settling in a compact set. -/
theorem euler_settles {F : Pt n → Pt n} (hF : Continuous F) {V : Pt n → ℝ} {A : Set (Pt n)} (hA : IsCompact A) {b c : ℝ}
    (h : ∃ ε > 0, ∃ τ : ℝ, ∀ (T : ℝ) (ξ : ℝ → Pt n), Disturbed F ε T ξ → ξ 0 ∈ A → V (ξ 0) ≤ c → ∀ t ∈ Icc 0 T, ξ t ∈ A ∧ V (ξ t) ≤ c ∧ (τ ≤ t → V (ξ t) ≤ b)) :
    ∃ h > 0, ∃ τ : ℝ, ∀ η x, Simulates F h η x → x 0 ∈ A → V (x 0) ≤ c → ∀ N, x N ∈ A ∧ V (x N) ≤ c ∧ (τ ≤ clock η N → V (x N) ≤ b) := by
  obtain ⟨h, hh, τ, key⟩ := held_settles id_continuous hF hA (F := fun _ u => u) h
  refine ⟨h, hh, τ, fun η x hx h0 hc N => ?_⟩
  obtain ⟨ξ, hξ, hv, hl, hon⟩ := euler_curve hx N
  have e0 : ξ 0 = x 0 := hv 0 (Nat.zero_le N)
  have := key _ ξ hξ (e0 ▸ h0) (e0 ▸ hc) (clock η N) ⟨clock_nonneg (fun k => (hx.1 k).1) N, le_rfl⟩
  rwa [hv N le_rfl] at this

theorem euler_region {F : Pt n → Pt n} (hF : Continuous F) {V : Pt n → ℝ} {level : ℝ} {I : Set (Pt n)} (h : TolerantRegion F V level I) : SimulatedRegion F V level I :=
  ⟨h.covers, fun A hA b hb h1 h2 => euler_settles hF hA (h.settles A hA b hb h1 h2)⟩

theorem euler_on {F : Pt n → Pt n} (hF : Continuous F) {V : Pt n → ℝ} {D : Set (Pt n)} (h : ToleratesOn F V D) : SimulatedOn F V D where
  descends C hC hCD := by
    obtain ⟨h, hh, δ, hδ, key⟩ := (held_on (F := fun _ u => u) id_continuous hF h).descends C hC hCD
    refine ⟨h, hh, δ, hδ, fun η x hx N hin => ?_⟩
    have hpos : ∀ k, 0 < η k := fun k => (hx.1 k).1
    obtain ⟨ξ, hξ, hv, hl, hon⟩ := euler_curve hx (N + 1)
    have := key _ ξ hξ (fun t ht => hin (hl _ le_rfl t ht)) (clock η N) (clock η (N + 1)) (clock_nonneg hpos N) ((clock_mono hpos).monotone (Nat.le_succ N)) le_rfl
    rw [hv _ le_rfl, hv _ (Nat.le_succ N), clock_succ, add_sub_cancel_left] at this
    exact this
  settles A H hA hAD b c l hbc hcl hH hfr := euler_settles hF hA (h.settles A H hA hAD b c l hbc hcl hH hfr)

/-- Reaching a goal and remaining in a set, inside a compact domain. -/
theorem euler_rar {F : Pt n → Pt n} (hF : Continuous F) {I S D G P : Set (Pt n)} (hD : IsCompact D)
    (h : ∃ ε > 0, ∃ τ : ℝ, ∀ (T : ℝ) (ξ : ℝ → Pt n), Disturbed F ε T ξ → ξ 0 ∈ I → (∀ t ∈ Icc 0 T, ξ t ∈ D) →
        (τ ≤ T → ∃ t ∈ Icc 0 τ, ξ t ∈ G) ∧ (∀ t ∈ Icc 0 T, ξ t ∈ S ∨ ∃ r ∈ Icc 0 t, ξ r ∈ G) ∧ ∀ r ∈ Icc 0 T, ξ r ∈ G → ∀ t ∈ Icc r T, ξ t ∈ P) :
    ∃ h > 0, ∃ τ : ℝ, ∀ η x, Simulates F h η x → x 0 ∈ I → ∀ N, brokenLine x N ⊆ D →
      (τ ≤ clock η N → ∃ p ∈ brokenLine x N, p ∈ G) ∧ (brokenLine x N ⊆ S ∨ ∃ p ∈ brokenLine x N, p ∈ G) ∧ ∀ j ≤ N, x j ∈ G → x N ∈ P := by
  obtain ⟨ε, hε, τ, key⟩ := h
  obtain ⟨p, hp, hheld⟩ := held_disturbed (F := fun _ u => u) id_continuous hF hD hε
  refine ⟨p, hp, τ, fun η x hx h0 N hin => ?_⟩
  have hpos : ∀ k, 0 < η k := fun k => (hx.1 k).1
  obtain ⟨ξ, hξ, hv, hl, hon⟩ := euler_curve hx N
  have e0 : ξ 0 = x 0 := hv 0 (Nat.zero_le N)
  have hinD : ∀ t ∈ Icc 0 (clock η N), ξ t ∈ D := fun t ht => hin (hl N le_rfl t ht)
  obtain ⟨h1, h2, h3⟩ := key _ ξ (hheld _ ξ hξ hinD) (e0 ▸ h0) hinD
  refine ⟨fun hτ => ?_, ?_, fun j hj hg => ?_⟩
  · obtain ⟨t, ht, hg⟩ := h1 hτ
    exact ⟨_, hl N le_rfl t ⟨ht.1, ht.2.trans hτ⟩, hg⟩
  · by_cases hG : ∃ p ∈ brokenLine x N, p ∈ G
    · exact Or.inr hG
    · refine Or.inl fun p hp => ?_
      obtain ⟨t, ht, rfl⟩ := hon p hp
      rcases h2 t ht with h4 | ⟨r, hr, h4⟩
      · exact h4
      · exact absurd ⟨_, hl N le_rfl r ⟨hr.1, hr.2.trans ht.2⟩, h4⟩ hG
  · have := h3 (clock η j) ⟨clock_nonneg hpos j, (clock_mono hpos).monotone hj⟩ (by rwa [hv j hj]) (clock η N) ⟨(clock_mono hpos).monotone hj, le_rfl⟩
    rwa [hv N le_rfl] at this

/-! ### runs on configuration files -/

section
variable {c : ConfigText} {r : Ready} {F : Pt c.nVars → Pt c.nVars} {w : World R Unit (Net × ℚ)} {T : Trainer Unit} {hidden : List ℕ} {acts : List ActivationType}

/-- **C95 (Barrier file).** -/
theorem C95_file_barrier (h : FileRun c r F w T hidden acts) (hc : c.cert = .BARRIER) (fl : ℝ → ℚ)
    (gs : ℕ → Rng) (g g' : Rng) (wt : ℕ → ℕ → ℕ → ℚ) (bs : ℕ → ℕ → ℚ) (hdraw : DrawsSome fl gs r.data) (hF : Continuous F)
    (I D U : Set (Pt c.nVars)) (hI : Configures c.nVars c.domains "XI" I) (hD : Configures c.nVars c.domains "XD" D) (hU : Configures c.nVars c.domains "XU" U) :
    ∃ net S out, newNet c.nVars hidden acts c.llo (certBias c.cert) wt bs = .ok net ∧ initData fl gs r.data = .ok S ∧
      Solves r.cfg.loop (singleComponents (w.withEstimate g g' r.cfg) r.cfg false (trainedLearn T r.cfg false w.dynNum)) (net, 0) () S out ∧
      (out.iters : ℤ) ≤ c.maxIters + 1 ∧
      (out.found = true → ∃ h > 0, ∀ η x, Simulates F h η x → x 0 ∈ I → ∀ N, brokenLine x N ⊆ D → ∀ p ∈ brokenLine x N, p ∉ U) := by
  obtain ⟨net, S, out, h1, h2, h3, h4, h5⟩ := C92_file_barrier h hc fl gs g g' wt bs hdraw hF I D U hI hD hU
  refine ⟨net, S, out, h1, h2, h3, h4, fun hf => ?_⟩
  obtain ⟨s, -, hs⟩ := hD
  exact euler_safe hF (setText_compact hs) (h5 hf)

/-- **C95 (reach-while-avoid and reach-and-stay file).** -/
theorem C95_file_reach (h : FileRun c r F w T hidden acts) (hc : c.cert = .RWS ∨ c.cert = .RWA ∨ c.cert = .RSWS ∨ c.cert = .RSWA) (hF : Continuous F) (fl : ℝ → ℚ)
    (gs : ℕ → Rng) (g g' : Rng) (wt : ℕ → ℕ → ℕ → ℚ) (bs : ℕ → ℕ → ℚ) (hdraw : DrawsSome fl gs r.data)
    (I S D G : Set (Pt c.nVars)) (hI : Configures c.nVars c.domains "XI" I) (hS : Configures c.nVars c.domains "XS" S)
    (hD : Configures c.nVars c.domains "XD" D) (hG : Configures c.nVars c.domains "XG" G) (h1 : I ⊆ S) (h2 : I ⊆ D) (h3 : frontier S ⊆ D) :
    ∃ net S0 out, newNet c.nVars hidden acts c.llo (certBias c.cert) wt bs = .ok net ∧ initData fl gs r.data = .ok S0 ∧
      Solves r.cfg.loop (singleComponents (w.withEstimate g g' r.cfg) r.cfg false (trainedLearn T r.cfg false w.dynNum)) (net, 0) () S0 out ∧
      (out.iters : ℤ) ≤ c.maxIters + 1 ∧
      (out.found = true → ∃ h > 0, ∃ τ : ℝ, ∀ η x, Simulates F h η x → x 0 ∈ I → ∀ N,
        (τ ≤ clock η N → ∃ p ∈ brokenLine x N, p ∈ G) ∧ (brokenLine x N ⊆ S ∨ ∃ p ∈ brokenLine x N, p ∈ G)) := by
  obtain ⟨net, S0, out, e1, e2, e3, e4, e5⟩ := C92_file_reach h hc fl gs g g' wt bs hdraw I S D G hI hS hD hG h1 h2 h3
  refine ⟨net, S0, out, e1, e2, e3, e4, fun hf => ?_⟩
  obtain ⟨s, -, hs⟩ := hS
  exact euler_reach hF (setText_bounded hs) h1 (e5 hf)

/-- **C95 (reach-and-stay file: staying).** -/
theorem C95_file_reach_stay (h : FileRun c r F w T hidden acts) (hc : c.cert = .RSWS) (hF : Continuous F) (fl : ℝ → ℚ)
    (gs : ℕ → Rng) (g g' : Rng) (wt : ℕ → ℕ → ℕ → ℚ) (bs : ℕ → ℕ → ℚ) (hdraw : DrawsSome fl gs r.data)
    (I S D G : Set (Pt c.nVars)) (hI : Configures c.nVars c.domains "XI" I) (hS : Configures c.nVars c.domains "XS" S)
    (hD : Configures c.nVars c.domains "XD" D) (hG : Configures c.nVars c.domains "XG" G) (h1 : I ⊆ S) (h2 : I ⊆ D) (h3 : frontier S ⊆ D) (h4 : G ⊆ S) :
    ∃ net S0 out, newNet c.nVars hidden acts c.llo (certBias c.cert) wt bs = .ok net ∧ initData fl gs r.data = .ok S0 ∧
      Solves r.cfg.loop (singleComponents (w.withEstimate g g' r.cfg) r.cfg false (trainedLearn T r.cfg false w.dynNum)) (net, 0) () S0 out ∧
      (out.iters : ℤ) ≤ c.maxIters + 1 ∧
      (out.found = true → ∃ h > 0, ∃ τ : ℝ, ∀ η x, Simulates F h η x → x 0 ∈ I → ∀ N, brokenLine x N ⊆ S ∧ (τ ≤ clock η N → x N ∈ G)) := by
  obtain ⟨net, S0, out, e1, e2, e3, e4, e5⟩ := C93_file_reach_stay h hc fl gs g g' wt bs hdraw I S D G hI hS hD hG h1 h2 h3 h4
  refine ⟨net, S0, out, e1, e2, e3, e4, fun hf => ?_⟩
  obtain ⟨s, -, hs⟩ := hS
  exact euler_stay hF (setText_bounded hs) h1 (e5 hf)

/-- **C95 (ROA file, LLO).** -/
theorem C95_file_roa (h : FileRun c r F w T hidden acts) (hc : c.cert = .ROA) (hllo : c.llo = true) (fl : ℝ → ℚ)
    (gs : ℕ → Rng) (g g' : Rng) (wt : ℕ → ℕ → ℕ → ℚ) (bs : ℕ → ℕ → ℚ) (hdraw : DrawsSome fl gs r.data)
    (I : Set (Pt c.nVars)) (hI : Configures c.nVars c.domains "XI" I) (hF : Continuous F) :
    ∃ net S out, newNet c.nVars hidden acts c.llo (certBias c.cert) wt bs = .ok net ∧ initData fl gs r.data = .ok S ∧
      Solves r.cfg.loop (singleComponents (w.withEstimate g g' r.cfg) r.cfg false (trainedLearn T r.cfg false w.dynNum)) (net, 0) () S out ∧
      (out.iters : ℤ) ≤ c.maxIters + 1 ∧
      (out.found = true → SimulatedRegion F (certValue c.rounding c.quad out.net.1) ((out.net.2 : ℝ) * (11/10)) I) := by
  obtain ⟨net, S, out, h1, h2, h3, h4, h5⟩ := C93_file_roa h hc hllo fl gs g g' wt bs hdraw I hI hF
  exact ⟨net, S, out, h1, h2, h3, h4, fun hf => euler_region hF (h5 hf)⟩

/-- **C95 (Lyapunov file).** -/
theorem C95_file_lyapunov (h : FileRun c r F w T hidden acts) (hc : c.cert = .LYAPUNOV) (fl : ℝ → ℚ)
    (gs : ℕ → Rng) (g g' : Rng) (wt : ℕ → ℕ → ℕ → ℚ) (bs : ℕ → ℕ → ℚ) (hdraw : DrawsSome fl gs r.data)
    (D : Set (Pt c.nVars)) (hD : Configures c.nVars c.domains "XD" D) (hF : Continuous F) :
    ∃ net S, newNet c.nVars hidden acts c.llo (certBias c.cert) wt bs = .ok net ∧ initData fl gs r.data = .ok S ∧
      ((∃ out, Solves r.cfg.loop (singleComponents (w.withEstimate g g' r.cfg) r.cfg false (trainedLearn T r.cfg false w.dynNum)) (net, 0) () S out ∧
        (out.iters : ℤ) ≤ c.maxIters + 1 ∧
        (out.found = true → SimulatedOn F (certValue c.rounding c.quad out.net.1) D)) ∨
      (∃ k st, Steps r.cfg.loop (singleComponents (w.withEstimate g g' r.cfg) r.cfg false (trainedLearn T r.cfg false w.dynNum))
        (initState (singleComponents (w.withEstimate g g' r.cfg) r.cfg false (trainedLearn T r.cfg false w.dynNum)) (net, 0) () S) k st ∧
        MeetsZeroDerivative T r.cfg false w.dynNum st)) := by
  obtain ⟨net, S, h1, h2, h3⟩ := C92_file_lyapunov h hc fl gs g g' wt bs hdraw D hD hF
  refine ⟨net, S, h1, h2, h3.imp ?_ id⟩
  rintro ⟨out, h3, h4, h5⟩
  exact ⟨out, h3, h4, fun hf => euler_on hF (h5 hf)⟩

end

section
variable {c : ConfigText} {r : Ready} {F : Pt c.nVars → Pt c.nVars} {w : World R Unit ((Net × ℚ) × Net)} {T : Trainer2 Unit} {hidden hidden2 : List ℕ}
  {acts acts2 : List ActivationType}

/-- **C95 (stable-while-safe file).** -/
theorem C95_file_stable_safe (h : FileRun2 c r F w T hidden hidden2 acts acts2) (hc : c.cert = .STABLESAFE) (fl : ℝ → ℚ)
    (gs : ℕ → Rng) (wt wt2 : ℕ → ℕ → ℕ → ℚ) (bs bs2 : ℕ → ℕ → ℚ) (hdraw : DrawsSome fl gs r.data)
    (I D U : Set (Pt c.nVars)) (hI : Configures c.nVars c.domains "XI" I) (hD : Configures c.nVars c.domains "XD" D)
    (hU : Configures c.nVars c.domains "XU" U) (hF : Continuous F) :
    ∃ net net2 S out, newNet c.nVars hidden acts c.llo (certBias2 c.cert).1 wt bs = .ok net ∧
      newNet c.nVars hidden2 acts2 false (certBias2 c.cert).2 wt2 bs2 = .ok net2 ∧ initData fl gs r.data = .ok S ∧
      Solves r.cfg.loop (doubleComponents w r.cfg (trainedLearn2 T r.cfg w.dynNum)) ((net, 0), net2) () S out ∧ (out.iters : ℤ) ≤ c.maxIters + 1 ∧
      (out.found = true → ∃ h > 0, ∀ η x, Simulates F h η x → x 0 ∈ I → ∀ N, brokenLine x N ⊆ D → ∀ p ∈ brokenLine x N, p ∉ U) := by
  obtain ⟨net, net2, S0, out, e1, e2, e3, e4, e5, e6⟩ := C93_file_stable_safe h hc fl gs wt wt2 bs bs2 hdraw I D U hI hD hU hF
  refine ⟨net, net2, S0, out, e1, e2, e3, e4, e5, fun hf => ?_⟩
  obtain ⟨s, -, hs⟩ := hD
  exact euler_safe hF (setText_compact hs) (e6 hf)

/-- **C95 (reach-avoid-remain file).** -/
theorem C95_file_rar (h : FileRun2 c r F w T hidden hidden2 acts acts2) (hc : c.cert = .RAR) (fl : ℝ → ℚ)
    (gs : ℕ → Rng) (wt wt2 : ℕ → ℕ → ℕ → ℚ) (bs bs2 : ℕ → ℕ → ℚ) (hdraw : DrawsSome fl gs r.data)
    (I S D G P : Set (Pt c.nVars)) (hI : Configures c.nVars c.domains "XI" I) (hS : Configures c.nVars c.domains "XS" S)
    (hD : Configures c.nVars c.domains "XD" D) (hG : Configures c.nVars c.domains "XG" G)
    (hP : Configures c.nVars c.domains "XF" P) (h1 : I ⊆ S) (h2 : I ⊆ D) (h3 : frontier S ⊆ D) (hF : Continuous F) :
    ∃ net net2 S0 out, newNet c.nVars hidden acts c.llo (certBias2 c.cert).1 wt bs = .ok net ∧
      newNet c.nVars hidden2 acts2 false (certBias2 c.cert).2 wt2 bs2 = .ok net2 ∧ initData fl gs r.data = .ok S0 ∧
      Solves r.cfg.loop (doubleComponents w r.cfg (trainedLearn2 T r.cfg w.dynNum)) ((net, 0), net2) () S0 out ∧ (out.iters : ℤ) ≤ c.maxIters + 1 ∧
      (out.found = true → ∃ h > 0, ∃ τ : ℝ, ∀ η x, Simulates F h η x → x 0 ∈ I → ∀ N, brokenLine x N ⊆ D →
        (τ ≤ clock η N → ∃ p ∈ brokenLine x N, p ∈ G) ∧ (brokenLine x N ⊆ S ∨ ∃ p ∈ brokenLine x N, p ∈ G) ∧ ∀ j ≤ N, x j ∈ G → x N ∈ P) := by
  obtain ⟨net, net2, S0, out, e1, e2, e3, e4, e5, e6⟩ := C93_file_rar h hc fl gs wt wt2 bs bs2 hdraw I S D G P hI hS hD hG hP h1 h2 h3 hF
  refine ⟨net, net2, S0, out, e1, e2, e3, e4, e5, fun hf => ?_⟩
  obtain ⟨s, -, hs⟩ := hD
  exact euler_rar hF (setText_compact hs) (e6 hf)

end

section
variable {c : ControlConfig} {w0 : ℕ → ℕ → ℕ → ℚ} {r : ReadyControl} {m : ℕ} {F : Pt c.base.nVars → Pt m → Pt c.base.nVars} {w : World R Controller (Net × ℚ)}
  {T : Trainer Controller} {hidden : List ℕ} {acts : List ActivationType}

/-- **C95 (Barrier file with a controller).** -/
theorem C95_control_barrier (h : ControlFileRun c w0 r m F w T hidden acts) (hc : c.base.cert = .BARRIER) (fl : ℝ → ℚ)
    (gs : ℕ → Rng) (g g' : Rng) (wt : ℕ → ℕ → ℕ → ℚ) (bs : ℕ → ℕ → ℚ) (hdraw : DrawsSome fl gs r.data) (hF : Continuous (fun z : Pt c.base.nVars × Pt m => F z.1 z.2))
    (I D U : Set (Pt c.base.nVars)) (hI : Configures c.base.nVars c.base.domains "XI" I) (hD : Configures c.base.nVars c.base.domains "XD" D) (hU : Configures c.base.nVars c.base.domains "XU" U) :
    ∃ net S out, newNet c.base.nVars hidden acts c.base.llo (certBias c.base.cert) wt bs = .ok net ∧ initData fl gs r.data = .ok S ∧
      Solves r.cfg.loop (singleComponents (w.withEstimate g g' r.cfg) r.cfg false (trainedLearn T r.cfg false w.dynNum)) (net, 0) r.ctrl S out ∧
      (out.iters : ℤ) ≤ c.base.maxIters + 1 ∧
      (out.found = true → ∃ h > 0, ∀ η x, Simulates (driven F (rounded5 out.ctrl)) h η x → x 0 ∈ I → ∀ N, brokenLine x N ⊆ D → ∀ p ∈ brokenLine x N, p ∉ U) := by
  obtain ⟨net, S, out, h1, h2, h3, h4, h5⟩ := C92_control_barrier h hc fl gs g g' wt bs hdraw hF I D U hI hD hU
  refine ⟨net, S, out, h1, h2, h3, h4, fun hf => ?_⟩
  obtain ⟨s, -, hs⟩ := hD
  exact euler_safe (driven_continuous hF _) (setText_compact hs) (h5 hf)

/-- **C95 (reach-while-avoid and reach-and-stay file with a controller).** -/
theorem C95_control_reach (h : ControlFileRun c w0 r m F w T hidden acts) (hc : c.base.cert = .RWS ∨ c.base.cert = .RWA ∨ c.base.cert = .RSWS ∨ c.base.cert = .RSWA) (hF : Continuous (fun z : Pt c.base.nVars × Pt m => F z.1 z.2)) (fl : ℝ → ℚ)
    (gs : ℕ → Rng) (g g' : Rng) (wt : ℕ → ℕ → ℕ → ℚ) (bs : ℕ → ℕ → ℚ) (hdraw : DrawsSome fl gs r.data)
    (I S D G : Set (Pt c.base.nVars)) (hI : Configures c.base.nVars c.base.domains "XI" I) (hS : Configures c.base.nVars c.base.domains "XS" S)
    (hD : Configures c.base.nVars c.base.domains "XD" D) (hG : Configures c.base.nVars c.base.domains "XG" G) (h1 : I ⊆ S) (h2 : I ⊆ D) (h3 : frontier S ⊆ D) :
    ∃ net S0 out, newNet c.base.nVars hidden acts c.base.llo (certBias c.base.cert) wt bs = .ok net ∧ initData fl gs r.data = .ok S0 ∧
      Solves r.cfg.loop (singleComponents (w.withEstimate g g' r.cfg) r.cfg false (trainedLearn T r.cfg false w.dynNum)) (net, 0) r.ctrl S0 out ∧
      (out.iters : ℤ) ≤ c.base.maxIters + 1 ∧
      (out.found = true → ∃ h > 0, ∃ τ : ℝ, ∀ η x, Simulates (driven F (rounded5 out.ctrl)) h η x → x 0 ∈ I → ∀ N,
        (τ ≤ clock η N → ∃ p ∈ brokenLine x N, p ∈ G) ∧ (brokenLine x N ⊆ S ∨ ∃ p ∈ brokenLine x N, p ∈ G)) := by
  obtain ⟨net, S0, out, e1, e2, e3, e4, e5⟩ := C92_control_reach h hc fl gs g g' wt bs hdraw I S D G hI hS hD hG h1 h2 h3
  refine ⟨net, S0, out, e1, e2, e3, e4, fun hf => ?_⟩
  obtain ⟨s, -, hs⟩ := hS
  exact euler_reach (driven_continuous hF _) (setText_bounded hs) h1 (e5 hf)

/-- **C95 (reach-and-stay file with a controller: staying).** -/
theorem C95_control_reach_stay (h : ControlFileRun c w0 r m F w T hidden acts) (hc : c.base.cert = .RSWS) (hF : Continuous (fun z : Pt c.base.nVars × Pt m => F z.1 z.2)) (fl : ℝ → ℚ)
    (gs : ℕ → Rng) (g g' : Rng) (wt : ℕ → ℕ → ℕ → ℚ) (bs : ℕ → ℕ → ℚ) (hdraw : DrawsSome fl gs r.data)
    (I S D G : Set (Pt c.base.nVars)) (hI : Configures c.base.nVars c.base.domains "XI" I) (hS : Configures c.base.nVars c.base.domains "XS" S)
    (hD : Configures c.base.nVars c.base.domains "XD" D) (hG : Configures c.base.nVars c.base.domains "XG" G) (h1 : I ⊆ S) (h2 : I ⊆ D) (h3 : frontier S ⊆ D) (h4 : G ⊆ S) :
    ∃ net S0 out, newNet c.base.nVars hidden acts c.base.llo (certBias c.base.cert) wt bs = .ok net ∧ initData fl gs r.data = .ok S0 ∧
      Solves r.cfg.loop (singleComponents (w.withEstimate g g' r.cfg) r.cfg false (trainedLearn T r.cfg false w.dynNum)) (net, 0) r.ctrl S0 out ∧
      (out.iters : ℤ) ≤ c.base.maxIters + 1 ∧
      (out.found = true → ∃ h > 0, ∃ τ : ℝ, ∀ η x, Simulates (driven F (rounded5 out.ctrl)) h η x → x 0 ∈ I → ∀ N, brokenLine x N ⊆ S ∧ (τ ≤ clock η N → x N ∈ G)) := by
  obtain ⟨net, S0, out, e1, e2, e3, e4, e5⟩ := C93_control_reach_stay h hc fl gs g g' wt bs hdraw I S D G hI hS hD hG h1 h2 h3 h4
  refine ⟨net, S0, out, e1, e2, e3, e4, fun hf => ?_⟩
  obtain ⟨s, -, hs⟩ := hS
  exact euler_stay (driven_continuous hF _) (setText_bounded hs) h1 (e5 hf)

/-- **C95 (ROA file with a controller, LLO).** -/
theorem C95_control_roa (h : ControlFileRun c w0 r m F w T hidden acts) (hc : c.base.cert = .ROA) (hllo : c.base.llo = true) (fl : ℝ → ℚ)
    (gs : ℕ → Rng) (g g' : Rng) (wt : ℕ → ℕ → ℕ → ℚ) (bs : ℕ → ℕ → ℚ) (hdraw : DrawsSome fl gs r.data)
    (I : Set (Pt c.base.nVars)) (hI : Configures c.base.nVars c.base.domains "XI" I) (hF : Continuous (fun z : Pt c.base.nVars × Pt m => F z.1 z.2)) :
    ∃ net S out, newNet c.base.nVars hidden acts c.base.llo (certBias c.base.cert) wt bs = .ok net ∧ initData fl gs r.data = .ok S ∧
      Solves r.cfg.loop (singleComponents (w.withEstimate g g' r.cfg) r.cfg false (trainedLearn T r.cfg false w.dynNum)) (net, 0) r.ctrl S out ∧
      (out.iters : ℤ) ≤ c.base.maxIters + 1 ∧
      (out.found = true → SimulatedRegion (driven F (rounded5 out.ctrl)) (certValue c.base.rounding c.base.quad out.net.1) ((out.net.2 : ℝ) * (11/10)) I) := by
  obtain ⟨net, S, out, h1, h2, h3, h4, h5⟩ := C93_control_roa h hc hllo fl gs g g' wt bs hdraw I hI hF
  exact ⟨net, S, out, h1, h2, h3, h4, fun hf => euler_region (driven_continuous hF _) (h5 hf)⟩

/-- **C95 (Lyapunov file with a controller).** -/
theorem C95_control_lyapunov (h : ControlFileRun c w0 r m F w T hidden acts) (hc : c.base.cert = .LYAPUNOV) (fl : ℝ → ℚ)
    (gs : ℕ → Rng) (g g' : Rng) (wt : ℕ → ℕ → ℕ → ℚ) (bs : ℕ → ℕ → ℚ) (hdraw : DrawsSome fl gs r.data)
    (D : Set (Pt c.base.nVars)) (hD : Configures c.base.nVars c.base.domains "XD" D) (hF : Continuous (fun z : Pt c.base.nVars × Pt m => F z.1 z.2)) :
    ∃ net S, newNet c.base.nVars hidden acts c.base.llo (certBias c.base.cert) wt bs = .ok net ∧ initData fl gs r.data = .ok S ∧
      ((∃ out, Solves r.cfg.loop (singleComponents (w.withEstimate g g' r.cfg) r.cfg false (trainedLearn T r.cfg false w.dynNum)) (net, 0) r.ctrl S out ∧
        (out.iters : ℤ) ≤ c.base.maxIters + 1 ∧
        (out.found = true → SimulatedOn (driven F (rounded5 out.ctrl)) (certValue c.base.rounding c.base.quad out.net.1) D)) ∨
      (∃ k st, Steps r.cfg.loop (singleComponents (w.withEstimate g g' r.cfg) r.cfg false (trainedLearn T r.cfg false w.dynNum))
        (initState (singleComponents (w.withEstimate g g' r.cfg) r.cfg false (trainedLearn T r.cfg false w.dynNum)) (net, 0) r.ctrl S) k st ∧
        MeetsZeroDerivative T r.cfg false w.dynNum st)) := by
  obtain ⟨net, S, h1, h2, h3⟩ := C92_control_lyapunov h hc fl gs g g' wt bs hdraw D hD hF
  refine ⟨net, S, h1, h2, h3.imp ?_ id⟩
  rintro ⟨out, h3, h4, h5⟩
  exact ⟨out, h3, h4, fun hf => euler_on (driven_continuous hF _) (h5 hf)⟩

end

section
variable {c : ControlConfig} {w0 : ℕ → ℕ → ℕ → ℚ} {r : ReadyControl} {m : ℕ} {F : Pt c.base.nVars → Pt m → Pt c.base.nVars} {w : World R Controller ((Net × ℚ) × Net)}
  {T : Trainer2 Controller} {hidden hidden2 : List ℕ} {acts acts2 : List ActivationType}

/-- **C95 (stable-while-safe file with a controller).** -/
theorem C95_control_stable_safe (h : ControlFileRun2 c w0 r m F w T hidden hidden2 acts acts2) (hc : c.base.cert = .STABLESAFE) (fl : ℝ → ℚ)
    (gs : ℕ → Rng) (wt wt2 : ℕ → ℕ → ℕ → ℚ) (bs bs2 : ℕ → ℕ → ℚ) (hdraw : DrawsSome fl gs r.data)
    (I D U : Set (Pt c.base.nVars)) (hI : Configures c.base.nVars c.base.domains "XI" I) (hD : Configures c.base.nVars c.base.domains "XD" D)
    (hU : Configures c.base.nVars c.base.domains "XU" U) (hF : Continuous (fun z : Pt c.base.nVars × Pt m => F z.1 z.2)) :
    ∃ net net2 S out, newNet c.base.nVars hidden acts c.base.llo (certBias2 c.base.cert).1 wt bs = .ok net ∧
      newNet c.base.nVars hidden2 acts2 false (certBias2 c.base.cert).2 wt2 bs2 = .ok net2 ∧ initData fl gs r.data = .ok S ∧
      Solves r.cfg.loop (doubleComponents w r.cfg (trainedLearn2 T r.cfg w.dynNum)) ((net, 0), net2) r.ctrl S out ∧ (out.iters : ℤ) ≤ c.base.maxIters + 1 ∧
      (out.found = true → ∃ h > 0, ∀ η x, Simulates (driven F (rounded5 out.ctrl)) h η x → x 0 ∈ I → ∀ N, brokenLine x N ⊆ D → ∀ p ∈ brokenLine x N, p ∉ U) := by
  obtain ⟨net, net2, S0, out, e1, e2, e3, e4, e5, e6⟩ := C93_control_stable_safe h hc fl gs wt wt2 bs bs2 hdraw I D U hI hD hU hF
  refine ⟨net, net2, S0, out, e1, e2, e3, e4, e5, fun hf => ?_⟩
  obtain ⟨s, -, hs⟩ := hD
  exact euler_safe (driven_continuous hF _) (setText_compact hs) (e6 hf)

/-- **C95 (reach-avoid-remain file with a controller).** -/
theorem C95_control_rar (h : ControlFileRun2 c w0 r m F w T hidden hidden2 acts acts2) (hc : c.base.cert = .RAR) (fl : ℝ → ℚ)
    (gs : ℕ → Rng) (wt wt2 : ℕ → ℕ → ℕ → ℚ) (bs bs2 : ℕ → ℕ → ℚ) (hdraw : DrawsSome fl gs r.data)
    (I S D G P : Set (Pt c.base.nVars)) (hI : Configures c.base.nVars c.base.domains "XI" I) (hS : Configures c.base.nVars c.base.domains "XS" S)
    (hD : Configures c.base.nVars c.base.domains "XD" D) (hG : Configures c.base.nVars c.base.domains "XG" G)
    (hP : Configures c.base.nVars c.base.domains "XF" P) (h1 : I ⊆ S) (h2 : I ⊆ D) (h3 : frontier S ⊆ D) (hF : Continuous (fun z : Pt c.base.nVars × Pt m => F z.1 z.2)) :
    ∃ net net2 S0 out, newNet c.base.nVars hidden acts c.base.llo (certBias2 c.base.cert).1 wt bs = .ok net ∧
      newNet c.base.nVars hidden2 acts2 false (certBias2 c.base.cert).2 wt2 bs2 = .ok net2 ∧ initData fl gs r.data = .ok S0 ∧
      Solves r.cfg.loop (doubleComponents w r.cfg (trainedLearn2 T r.cfg w.dynNum)) ((net, 0), net2) r.ctrl S0 out ∧ (out.iters : ℤ) ≤ c.base.maxIters + 1 ∧
      (out.found = true → ∃ h > 0, ∃ τ : ℝ, ∀ η x, Simulates (driven F (rounded5 out.ctrl)) h η x → x 0 ∈ I → ∀ N, brokenLine x N ⊆ D →
        (τ ≤ clock η N → ∃ p ∈ brokenLine x N, p ∈ G) ∧ (brokenLine x N ⊆ S ∨ ∃ p ∈ brokenLine x N, p ∈ G) ∧ ∀ j ≤ N, x j ∈ G → x N ∈ P) := by
  obtain ⟨net, net2, S0, out, e1, e2, e3, e4, e5, e6⟩ := C93_control_rar h hc fl gs wt wt2 bs bs2 hdraw I S D G P hI hS hD hG hP h1 h2 h3 hF
  refine ⟨net, net2, S0, out, e1, e2, e3, e4, e5, fun hf => ?_⟩
  obtain ⟨s, -, hs⟩ := hD
  exact euler_rar (driven_continuous hF _) (setText_compact hs) (e6 hf)

end

/-! ### the discrete-time models of the benchmarks -/

/-- **C95 (Eulerised models).** The discrete-time model that `Eulerised` makes of a continuous model with step `h` has as runs exactly the Euler simulations with that step: for
small `h` it inherits what was verified of the continuous one. -/
theorem C95_eulerised_runs (fc : List Term → Except Err (List Term)) (h : ℚ) {f : List Term} (hf : fc (vars n) = .ok f) (hn : f.length = n) :
    ∃ g, eulerSmt h fc (vars n) = .ok g ∧ ∀ x : ℕ → Pt n, IsRun (field n g) x ↔ EulerRun (field n f) (fun _ => (h : ℝ)) x := by
  refine ⟨_, by unfold eulerSmt; rw [hf], fun x => forall_congr' fun k => ?_⟩
  have e : field n (List.zipWith (fun (v0 v1 : Term) => Term.add v0 (Term.mul (Term.const h) v1)) (vars n) f) (x k) = x k + (h : ℝ) • field n f (x k) := by
    funext i
    have hv : (vars n)[i.1]? = some (.var i.1) := by simp [vars]
    have hg : f[i.1]? = some f[i.1] := List.getElem?_eq_getElem (hn ▸ i.2)
    simp only [field, Pi.add_apply, Pi.smul_apply, smul_eq_mul, List.getD_eq_getElem?_getD, List.getElem?_zipWith, hv, hg, Option.getD_some, Term.eval, Pt.env_fin]
  show x (k + 1) = field n (List.zipWith (fun (v0 v1 : Term) => Term.add v0 (Term.mul (Term.const h) v1)) (vars n) f) (x k) ↔ _
  rw [e]

/-- The benchmark-like model `x' = -x` with step `1/10`. -/
example : (fun _ => Except.ok [.neg (.var 0)] : List Term → Except Err (List Term)) (vars 1) = .ok [.neg (.var 0)] ∧ [Term.neg (.var 0)].length = 1 := ⟨rfl, rfl⟩

/-! ### simulations and files that meet the hypotheses -/

/-- Every model, step bound and starting point has simulations, of any length of simulated time. -/
theorem exists_simulation (F : Pt n → Pt n) {h : ℝ} (hh : 0 < h) (p : Pt n) : ∃ η x, Simulates F h η x ∧ x 0 = p ∧ ∀ τ, ∃ N, τ ≤ clock η N := by
  refine ⟨fun _ => h, fun k => (fun q => q + h • F q)^[k] p, simulates_of_euler (fun _ => ⟨hh, le_rfl⟩) fun k => ?_, rfl, fun τ => ?_⟩
  · show (fun q => q + h • F q)^[k + 1] p = _
    rw [Function.iterate_succ_apply']
  · obtain ⟨N, hN⟩ := exists_nat_ge (τ / h)
    refine ⟨N, ?_⟩
    rw [div_le_iff₀ hh] at hN
    simpa [clock] using hN

/-- The bound on the step is needed: simulated with steps of length 3, `x' = -x` diverges: `1, -2, 4, -8, …`. -/
example : Simulates (fun (p : Pt 1) i => - p i) 3 (fun _ => 3) (fun k _ => (-2) ^ k) ∧ ¬ Bornology.IsBounded (range fun (k : ℕ) => (fun _ => (-2) ^ k : Pt 1)) := by
  refine ⟨simulates_of_euler (fun _ => ⟨by norm_num, le_rfl⟩) fun k => ?_, fun hb => ?_⟩
  · funext i
    simp only [Pi.add_apply, Pi.smul_apply, smul_eq_mul, pow_succ]
    ring
  · obtain ⟨M, hM⟩ := hb.exists_norm_le
    obtain ⟨k, hk⟩ := pow_unbounded_of_one_lt M (one_lt_two (α := ℝ))
    have h1 := (norm_le_pi_norm (fun _ => (-2 : ℝ) ^ k : Pt 1) 0).trans (hM _ ⟨k, rfl⟩)
    rw [Real.norm_eq_abs, abs_pow, abs_neg, abs_two] at h1
    linarith

/- Files and worlds that meet the hypotheses of the theorems of this file are those at the end of `C92_Margin` and `C93_MarginMore`: the hypotheses are the same. -/

/-- One of them, with the continuity of the field: a run on a reach-and-stay file. -/
example : (∃ r, FileRun exStayConfig r (fun p i => - p i) (stayWorld (Net × ℚ) [.neg (.var 0)]) exTrainer [1] [.SQUARE] ∧ (∀ fl, DrawsSome fl (fun _ => zeroRng) r.data) ∧
      exStayConfig.cert = .RSWS) ∧ Continuous (fun (p : Pt 1) i => - p i) := by
  refine ⟨?_, by fun_prop⟩
  have hs := fun i V Vdot => stayWorld_search (Net × ℚ) [.neg (.var 0)] ⟨.z3, 1, .RSWS, exStayDoms, false, 3, false, 10⟩ ⟨_, rfl, fun V Vdot β => ⟨_, rfl⟩⟩ i V Vdot
  exact ⟨_, ⟨Or.inl rfl, exStay_described, minus_x_system _, exStay_ready_data, by decide, stayWorld_sound _ _ _, fun _ => rfl, stayWorld_fair _ _ _ rfl, fun _ => hs,
    fun _ _ _ => sameShape_refl _, exFile_good⟩, exStay_draws, rfl⟩

end Fossil

/-
C68: when training stops. The loops stop at the first pass in which their conditions hold on the samples, and do not fail.
-/
import Verif.Props.C35_Learning

namespace Fossil

variable {Θ P : Type}

namespace Spec

/-- `n` is the number of steps after which a loop stops that waits for `C` from step `k` on and gives up after 1000 steps. -/
def StopsOnce (k : ℕ) (C : ℕ → Prop) (n : ℕ) : Prop :=
  k ≤ n ∧ n ≤ 1000 ∧ (n < 1000 → C n) ∧ ∀ m, k ≤ m → m < n → ¬ C m

/-- The same for a loop that waits for `C` in two consecutive passes. -/
def StopsTwice (C : ℕ → Prop) (n : ℕ) : Prop :=
  1 ≤ n ∧ n ≤ 1000 ∧ (n < 1000 → C (n - 1) ∧ C n) ∧ ∀ m, 1 ≤ m → m < n → ¬ (C (m - 1) ∧ C m)

/-- The number of steps is determined. -/
theorem StopsOnce.unique {k : ℕ} {C : ℕ → Prop} {n n' : ℕ} (h : StopsOnce k C n) (h' : StopsOnce k C n') : n = n' := by
  rcases lt_trichotomy n n' with hlt | rfl | hlt
  · exact absurd (h.2.2.1 (by have := h'.2.1; omega)) (h'.2.2.2 n h.1 hlt)
  · rfl
  · exact absurd (h'.2.2.1 (by have := h.2.1; omega)) (h.2.2.2 n' h'.1 hlt)

theorem StopsTwice.unique {C : ℕ → Prop} {n n' : ℕ} (h : StopsTwice C n) (h' : StopsTwice C n') : n = n' := by
  rcases lt_trichotomy n n' with hlt | rfl | hlt
  · exact absurd (h.2.2.1 (by have := h'.2.1; omega)) (h'.2.2.2 n h.1 hlt)
  · rfl
  · exact absurd (h'.2.2.1 (by have := h.2.1; omega)) (h.2.2.2 n' h'.1 hlt)

end Spec

open Spec

/-! ### the loops -/

theorem trainLoop_total {σ : Type} {check : ℕ → σ → Θ → Except Err (Bool × σ)} {step : ℕ → Θ → Θ} :
    ∀ (k t : ℕ) (s : σ) (θ : Θ) (n : ℕ), (∀ i s, ∃ r, check (t + i) s (stepsFrom step t i θ) = .ok r) →
    ∃ r, trainLoop check step k t s θ n = .ok r := by
  intro k
  induction k with
  | zero => intro t s θ n _; exact ⟨_, rfl⟩
  | succ k ih =>
    intro t s θ n h
    obtain ⟨⟨b, s'⟩, hr⟩ := h 0 s
    simp only [Nat.add_zero, stepsFrom] at hr
    rw [trainLoop, hr]
    cases b with
    | true => exact ⟨_, rfl⟩
    | false =>
      refine ih (t + 1) s' (step t θ) (n + 1) fun i s => ?_
      rw [stepsFrom_succ, show t + 1 + i = t + (i + 1) by omega]
      exact h (i + 1) s

theorem twiceLoop_exact {α : Type} {pass : Θ → Except Err α} {ok : α → Bool} {step : ℕ → Θ → Θ} {θ : Θ} {C : ℕ → Prop}
    (h : ∀ m, ∃ a, pass (afterSteps step m θ) = .ok a ∧ (ok a = true ↔ C m)) :
    ∃ n, twiceLoop pass ok step θ = .ok (afterSteps step n θ, n) ∧ StopsTwice C n := by
  have key : ∀ m s, ∃ a, (do let a ← pass (stepsFrom step 0 m θ); return (ok a && s, ok a) : Except Err (Bool × Bool)) = .ok (ok a && s, ok a) ∧
      (ok a = true ↔ C m) := by
    intro m s
    obtain ⟨a, ha, hc⟩ := h m
    refine ⟨a, ?_, hc⟩
    rw [stepsFrom_zero_eq, ha]; rfl
  obtain ⟨⟨θ', n⟩, hr⟩ := trainLoop_total (check := fun _ (old : Bool) θ => do
      let a ← pass θ
      return (ok a && old, ok a)) (step := step) learnLoops 0 false θ 0 (fun i s => by
        obtain ⟨a, ha, _⟩ := key i s
        exact ⟨_, ha⟩)
  have hr' : twiceLoop pass ok step θ = .ok (θ', n) := hr
  obtain ⟨h1, h2, h3, h4⟩ := twiceLoop_spec _ _ _ _ _ _ hr'
  subst h3
  refine ⟨n, hr', h1, h2, fun hn => ?_, ?_⟩
  · have hat : ∀ m, (m = n ∨ m = n - 1) → C m := by
      intro m hm
      obtain ⟨a, ha, hok⟩ := h4 hn m hm
      obtain ⟨a', ha', hc⟩ := h m
      rw [ha'] at ha
      cases ha
      exact hc.1 hok
    exact ⟨hat _ (Or.inr rfl), hat _ (Or.inl rfl)⟩
  · intro m hm1 hm2 hC
    obtain ⟨j, hj, hn, -, ss, h5, h6, -⟩ := trainLoop_spec _ step _ _ _ _ _ _ _ hr
    have hnj : n = j := by omega
    subst hnj
    obtain ⟨i, rfl⟩ : ∃ i, m = i + 1 := ⟨m - 1, by omega⟩
    simp only [Nat.add_sub_cancel] at hC
    have e1 := h6 i (by omega)
    have e2 := h6 (i + 1) hm2
    obtain ⟨a, ha, hca⟩ := key i (ss i)
    obtain ⟨a', ha', hca'⟩ := key (i + 1) (ss (i + 1))
    rw [ha] at e1
    rw [ha'] at e2
    simp only [Except.ok.injEq, Prod.mk.injEq] at e1 e2
    rw [hca'.2 hC.2, ← e1.2, hca.2 hC.1] at e2
    simp at e2

theorem onceLoop_exact {k : ℕ} (hk : k ≤ 1000) {check : ℕ → Unit → Θ → Except Err (Bool × Unit)} {step : ℕ → Θ → Θ} {θ : Θ} {C : ℕ → Prop}
    (h : ∀ m, ∃ b, check m () (afterSteps step m θ) = .ok (b, ()) ∧ (b = true ↔ k ≤ m ∧ C m)) :
    ∃ n, trainLoop check step learnLoops 0 () θ 0 = .ok (afterSteps step n θ, n) ∧ StopsOnce k C n := by
  obtain ⟨⟨θ', n⟩, hr⟩ := trainLoop_total (check := check) (step := step) learnLoops 0 () θ 0 (fun i s => by
    obtain ⟨b, hb, _⟩ := h i
    rw [stepsFrom_zero_eq, Nat.zero_add]
    exact ⟨_, hb⟩)
  obtain ⟨j, hj, hn, hθ, ss, h5, h6, h7⟩ := trainLoop_spec _ step _ _ _ _ _ _ _ hr
  have hnj : n = j := by omega
  subst hnj
  rw [stepsFrom_zero_eq] at hθ
  subst hθ
  unfold learnLoops at hj h7
  have hlt : n < 1000 → k ≤ n ∧ C n := by
    intro hlt
    obtain ⟨s', hs'⟩ := h7 hlt
    obtain ⟨b, hb, hc⟩ := h n
    rw [Nat.zero_add, hb] at hs'
    cases hs'
    exact hc.1 rfl
  refine ⟨n, hr, ?_, hj, fun hn => (hlt hn).2, ?_⟩
  · by_cases hn : n < 1000
    · exact (hlt hn).1
    · omega
  · intro m hm1 hm2 hC
    have e := h6 m hm2
    obtain ⟨b, hb, hc⟩ := h m
    rw [stepsFrom_zero_eq, Nat.zero_add, hb] at e
    cases e
    have := hc.2 ⟨hm1, hC⟩
    cases this

/-! ### the accuracies -/

theorem percent_of_violations (p : ℝ → Prop) (l : List ℝ) (hne : l ≠ []) :
    (999/10 : ℚ) ≤ 100 * (countNonzero p l : ℚ) / l.length ↔ 1000 * violations p l ≤ l.length := by
  refine ⟨violations_of_percent p l hne, fun h => ?_⟩
  have hl : (0 : ℚ) < l.length := by exact_mod_cast List.length_pos_iff_ne_nil.2 hne
  rw [le_div_iff₀ hl]
  have e' : (countNonzero p l : ℚ) + violations p l = l.length := by exact_mod_cast countNonzero_add_violations p l
  have : (1000 * violations p l : ℚ) ≤ l.length := by exact_mod_cast h
  linarith

theorem mostly_iff (v : Values Θ P) (θ : Θ) (p d : List P) (sel : ℝ → Prop) (good : ℝ → Prop) (sl : List ℝ)
    (hsl : sl = (((valsAt v θ p).zip (liesAt v θ p d)).filter (fun q => open Classical in decide (sel q.1))).map Prod.snd)
    (hlen : p.length = d.length) :
    (sl ≠ [] ∧ 1000 * violations good sl ≤ sl.length) ↔
    Mostly (fun x => sel (v.val θ x)) (fun q => good (v.lie θ q.1 q.2)) (p.zip d) := by
  classical
  constructor
  · rintro ⟨h1, h2⟩
    refine mostly_of v θ p d sel good sl ?_ hlen h1 h2 ?_
    · rw [hsl]
    · intro h
      exact (violations_zero_iff _ _).1 (by omega)
  · rintro ⟨⟨q, hq, hs⟩, h2, -⟩
    rw [zip_vals_lies v θ p d hlen] at hsl
    have e : sl = ((p.zip d).filter (fun q => decide (sel (v.val θ q.1)))).map (fun q => v.lie θ q.1 q.2) := by
      rw [hsl, List.filter_map, List.map_map]; congr 1
    have hcount : sl.length = (p.zip d).countP (fun q => decide (sel (v.val θ q.1))) := by
      rw [e, List.length_map, ← List.countP_eq_length_filter]
    have hviol : violations good sl = (p.zip d).countP (fun q => decide (sel (v.val θ q.1) ∧ ¬ good (v.lie θ q.1 q.2))) := by
      rw [violations, e, List.countP_map, List.countP_filter]
      apply List.countP_congr
      intro q _
      simp [and_comm]
    refine ⟨?_, ?_⟩
    · rw [e]
      exact List.ne_nil_of_mem (List.mem_map.2 ⟨q, List.mem_filter.2 ⟨hq, by simpa using hs⟩, rfl⟩)
    · rw [hviol, hcount]
      convert h2 using 2

theorem initUnsafe_total {m : ℝ} {Bi Bu : List ℝ} (h : Bi ≠ [] ∨ Bu ≠ []) : ∃ q, initUnsafeAcc m Bi Bu = .ok q := by
  unfold initUnsafeAcc percent
  rw [if_neg]
  · exact ⟨_, rfl⟩
  · intro h0
    have h1 : Bi.length = 0 := by omega
    have h2 : Bu.length = 0 := by omega
    rcases h with h | h
    · exact h (List.length_eq_zero_iff.1 h1)
    · exact h (List.length_eq_zero_iff.1 h2)

theorem initUnsafe_le {m : ℝ} {Bi Bu : List ℝ} {q : ℚ} (h : initUnsafeAcc m Bi Bu = .ok q) : q ≤ 100 := by
  unfold initUnsafeAcc percent at h
  split at h
  · cases h
  · cases h
    rename_i h0
    have hpos : (0 : ℚ) < ((Bu.length + Bi.length : ℕ) : ℚ) := by exact_mod_cast Nat.pos_of_ne_zero h0
    rw [div_le_iff₀ hpos]
    have h1 := countNonzero_le (· ≤ -m) Bi
    have h2 := countNonzero_le (m ≤ ·) Bu
    have h3 : ((countNonzero (m ≤ ·) Bu + countNonzero (· ≤ -m) Bi : ℕ) : ℚ) ≤ ((Bu.length + Bi.length : ℕ) : ℚ) := by
      exact_mod_cast (by omega)
    push_cast at h3 ⊢
    linarith

theorem vals_ne {v : Values Θ P} {θ : Θ} {p q : List P} (h : p ≠ [] ∨ q ≠ []) : valsAt v θ p ≠ [] ∨ valsAt v θ q ≠ [] := by
  simpa [valsAt] using h

theorem initUnsafe_samples (v : Values Θ P) (θ : Θ) (m : ℝ) {pi pu : List P} (h : pi ≠ [] ∨ pu ≠ []) :
    initUnsafeAcc m (valsAt v θ pi) (valsAt v θ pu) = .ok 100 ↔ (∀ x ∈ pi, v.val θ x ≤ -m) ∧ ∀ x ∈ pu, m ≤ v.val θ x := by
  rw [C44_init_unsafe_accuracy]
  simp [valsAt]
  intro _ _
  simpa using h

theorem barrierAcc_exact (sym : Bool) (v : Values Θ P) (θ : Θ) {pi pu pd d : List P} (hlen : pd.length = d.length) (hne : pi ≠ [] ∨ pu ≠ []) :
    ∃ a, barrierAcc sym (valsAt v θ pi) (valsAt v θ pu) (valsAt v θ pd) (liesAt v θ pd d) = .ok a ∧
      (barrierOk a = true ↔ BarrierOnSamples sym v θ pi pu (pd.zip d)) := by
  classical
  obtain ⟨q, hq⟩ := initUnsafe_total (m := 0) (vals_ne (v := v) (θ := θ) hne)
  have hiu := initUnsafe_samples v θ 0 hne
  have hm := mostly_iff v θ pd d (fun b => if sym then |b| ≤ 1/2 else 0 ≤ b) (· ≤ 0)
    (beltVals sym (valsAt v θ pd) (liesAt v θ pd d)) (by
      unfold beltVals
      congr 1
      apply List.filter_congr
      intro q _
      cases sym <;> simp) hlen
  unfold BarrierOnSamples barrierAcc
  rw [← hm]
  rw [hq, neg_zero] at hiu
  simp only [hq, Bind.bind, Except.bind]
  by_cases hb : beltVals sym (valsAt v θ pd) (liesAt v θ pd d) = []
  · rw [if_pos hb]
    refine ⟨_, rfl, ?_⟩
    simp only [barrierOk, hb, ne_eq, not_true_eq_false, false_and, and_false, iff_false]
    norm_num
  · rw [if_neg hb]
    refine ⟨_, rfl, ?_⟩
    simp only [barrierOk, Bool.and_eq_true, decide_eq_true_eq, percent_of_violations _ _ hb]
    rw [← and_assoc, ← hiu]
    simp [hb]

theorem rwsAcc_exact (v : Values Θ P) (θ : Θ) {pi pu pd d : List P} (hlen : pd.length = d.length) (hne : pi ≠ [] ∨ pu ≠ []) :
    ∃ a, rwsAcc (valsAt v θ pi) (valsAt v θ pu) (valsAt v θ pd) (liesAt v θ pd d) = .ok a ∧
      (barrierOk a = true ↔ ReachOnSamples v θ pi pu (pd.zip d)) := by
  classical
  obtain ⟨q, hq⟩ := initUnsafe_total (m := 0) (vals_ne (v := v) (θ := θ) hne)
  have hiu := initUnsafe_samples v θ 0 hne
  have hm := mostly_iff v θ pd d (fun b => b < 0) (· ≤ -(1/100))
    (lieVals (valsAt v θ pd) (liesAt v θ pd d)) (by
      unfold lieVals
      congr 1) hlen
  unfold ReachOnSamples rwsAcc
  rw [← hm]
  rw [hq, neg_zero] at hiu
  simp only [hq, Bind.bind, Except.bind]
  by_cases hb : lieVals (valsAt v θ pd) (liesAt v θ pd d) = []
  · rw [if_pos hb]
    refine ⟨_, rfl, ?_⟩
    simp only [barrierOk, hb, ne_eq, not_true_eq_false, false_and, and_false, iff_false]
    norm_num
  · rw [if_neg hb]
    refine ⟨_, rfl, ?_⟩
    simp only [barrierOk, Bool.and_eq_true, decide_eq_true_eq]
    rw [mul_comm, percent_of_violations _ _ hb, ← and_assoc, ← hiu]
    simp [hb]

theorem barrierAltAcc_exact (v : Values Θ P) (θ : Θ) {pi pu pd d : List P} (hlen : pd.length = d.length) (hne : pi ≠ [] ∨ pu ≠ [])
    (hpd : pd ≠ []) :
    ∃ a, barrierAltAcc (valsAt v θ pi) (valsAt v θ pu) (valsAt v θ pd) (liesAt v θ pd d) = .ok a ∧
      (barrierOk a = true ↔ BarrierAltOnSamples v θ pi pu (pd.zip d)) := by
  classical
  obtain ⟨q, hq⟩ := initUnsafe_total (m := 1/20) (vals_ne (v := v) (θ := θ) hne)
  have hiu := initUnsafe_samples v θ (1/20) hne
  have hm := mostly_iff v θ pd d (fun _ => True) (· ≤ -(1/20)) (liesAt v θ pd d) (by
      rw [zip_vals_lies v _ pd _ hlen]
      simp only [liesAt, decide_true, List.filter_true, List.map_map]
      rfl) hlen
  have hl : (liesAt v θ pd d).length ≠ 0 := by
    rw [liesAt_length v θ hlen]; simpa using hpd
  have hb : liesAt v θ pd d ≠ [] := by simpa using hl
  unfold BarrierAltOnSamples barrierAltAcc
  rw [← hm]
  rw [hq] at hiu
  simp only [hq, Bind.bind, Except.bind, percent, if_neg hl]
  refine ⟨_, rfl, ?_⟩
  simp only [barrierOk, Bool.and_eq_true, decide_eq_true_eq]
  rw [mul_comm, percent_of_violations _ _ hb, ← and_assoc, ← hiu]
  simp [hb]

/-- All derivative samples good gives 100 per cent, and conversely. -/
theorem percent_all (p : ℝ → Prop) (l : List ℝ) (hne : l ≠ []) :
    100 ≤ 100 * (countNonzero p l : ℚ) / l.length ↔ ∀ x ∈ l, p x := by
  have hl : (0 : ℚ) < l.length := by exact_mod_cast List.length_pos_iff_ne_nil.2 hne
  rw [le_div_iff₀ hl, ← countNonzero_eq_iff]
  have := countNonzero_le p l
  constructor
  · intro h
    have : (l.length : ℚ) ≤ countNonzero p l := by linarith
    exact le_antisymm (by assumption) (by exact_mod_cast this)
  · intro h
    rw [h]

theorem rwsAcc_strict (v : Values Θ P) (θ : Θ) {pi pu pd d : List P} (hlen : pd.length = d.length) (hne : pi ≠ [] ∨ pu ≠ []) :
    ∃ a, rwsAcc (valsAt v θ pi) (valsAt v θ pu) (valsAt v θ pd) (liesAt v θ pd d) = .ok a ∧
      (a.1 = 100 ∧ 100 ≤ a.2 ↔ ReachOnSamples v θ pi pu (pd.zip d) ∧
        ∀ q ∈ pd.zip d, v.val θ q.1 < 0 → v.lie θ q.1 q.2 ≤ -(1/100)) := by
  classical
  obtain ⟨a, ha, hok⟩ := rwsAcc_exact v θ hlen hne
  refine ⟨a, ha, ?_⟩
  rw [← hok]
  have hall : ∀ x ∈ lieVals (valsAt v θ pd) (liesAt v θ pd d), (∃ q ∈ pd.zip d, v.val θ q.1 < 0 ∧ v.lie θ q.1 q.2 = x) := by
    intro x hx
    unfold lieVals at hx
    rw [zip_vals_lies v θ pd d hlen] at hx
    simp only [List.mem_map, List.mem_filter, decide_eq_true_eq] at hx
    obtain ⟨y, ⟨⟨q, hq, rfl⟩, hy⟩, rfl⟩ := hx
    exact ⟨q, hq, hy, rfl⟩
  have hall' : ∀ q ∈ pd.zip d, v.val θ q.1 < 0 → v.lie θ q.1 q.2 ∈ lieVals (valsAt v θ pd) (liesAt v θ pd d) := by
    intro q hq hneg
    unfold lieVals
    rw [zip_vals_lies v θ pd d hlen]
    simp only [List.mem_map, List.mem_filter, decide_eq_true_eq]
    exact ⟨_, ⟨⟨q, hq, rfl⟩, hneg⟩, rfl⟩
  constructor
  · rintro ⟨h1, h2⟩
    refine ⟨?_, fun q hq hneg => rwsAcc_all ha h2 _ (hall' q hq hneg)⟩
    simp only [barrierOk, Bool.and_eq_true, decide_eq_true_eq]
    exact ⟨h1, by linarith⟩
  · rintro ⟨h1, h2⟩
    simp only [barrierOk, Bool.and_eq_true, decide_eq_true_eq] at h1
    refine ⟨h1.1, ?_⟩
    unfold rwsAcc at ha
    obtain ⟨iu, -, h3⟩ := except_bind_ok ha
    by_cases hb : lieVals (valsAt v θ pd) (liesAt v θ pd d) = []
    · rw [if_pos hb] at h3
      cases h3
      norm_num at h1
    · rw [if_neg hb] at h3
      cases h3
      simp only
      rw [mul_comm, percent_all _ _ hb]
      intro x hx
      obtain ⟨q, hq, hneg, rfl⟩ := hall x hx
      exact h2 q hq hneg

theorem roaAcc_exact (llo : Bool) (v : Values Θ P) (θ : Θ) {p d : List P} (hlen : p.length = d.length) (hp : p ≠ []) :
    ∃ a, roaAcc llo (valsAt v θ p) (liesAt v θ p d) = .ok a ∧
      (a = 100 ↔ (∀ q ∈ p.zip d, v.lie θ q.1 q.2 ≤ 0) ∧ (llo = false → ∀ x ∈ p, 0 ≤ v.val θ x)) := by
  have hl0 : (liesAt v θ p d).length ≠ 0 := by
    rw [liesAt_length v _ hlen]; simpa using hp
  have hne : liesAt v θ p d ≠ [] := by simpa using hl0
  have hacc := C44_roa_accuracy llo (valsAt v θ p) (liesAt v θ p d) (by rw [valsAt_length, liesAt_length v _ hlen]) hne
  obtain ⟨a, ha⟩ : ∃ a, roaAcc llo (valsAt v θ p) (liesAt v θ p d) = .ok a := by
    unfold roaAcc percent
    cases llo <;> simp only [if_neg hl0, if_true, Bool.false_eq_true, if_false] <;> exact ⟨_, rfl⟩
  refine ⟨a, ha, ?_⟩
  rw [ha] at hacc
  simp only [Except.ok.injEq] at hacc
  rw [hacc]
  simp only [valsAt, liesAt, List.forall_mem_map]

/-! ### the certificates -/

/-- **C68 (Lyapunov).** With domain samples whose derivatives are never all exactly zero, `learn` does not fail; it stops after the first
step (of at most 1000) after which the derivative is non-positive and, unless positivity is by construction, the function non-negative at
every domain sample. -/
theorem C68_lyapunov (llo : Bool) (v : Values Θ P) (f : Option (Θ → P → P)) (step : ℕ → Θ → Θ) (S Sdot : Dict String (List P)) (θ : Θ)
    (p d : List P) (hl : Labelled f S Sdot XD p d)
    (hz : ∀ m, ∃ q ∈ p.zip (derivs f (afterSteps step m θ) p d), v.lie (afterSteps step m θ) q.1 q.2 ≠ 0) :
    ∃ n, lyapLearn (lyapAcc llo) v f step S Sdot θ = .ok (afterSteps step n θ, n) ∧
      StopsOnce 1 (fun m => (∀ q ∈ p.zip (derivs f (afterSteps step m θ) p d), v.lie (afterSteps step m θ) q.1 q.2 ≤ 0) ∧
        (llo = false → ∀ x ∈ p, 0 ≤ v.val (afterSteps step m θ) x)) n := by
  refine onceLoop_exact (by norm_num) fun m => ?_
  have hlen := (derivs_length hl (afterSteps step m θ)).symm
  obtain ⟨q, hq, hq0⟩ := hz m
  have hmem : v.lie (afterSteps step m θ) q.1 q.2 ∈ liesAt v (afterSteps step m θ) p (derivs f (afterSteps step m θ) p d) :=
    List.mem_map_of_mem (f := fun q : P × P => v.lie (afterSteps step m θ) q.1 q.2) hq
  have hne : liesAt v (afterSteps step m θ) p (derivs f (afterSteps step m θ) p d) ≠ [] := List.ne_nil_of_mem hmem
  have hacc := C44_roa_accuracy llo (valsAt v (afterSteps step m θ) p) (liesAt v (afterSteps step m θ) p (derivs f (afterSteps step m θ) p d))
    (by rw [valsAt_length, liesAt_length v _ hlen]) hne
  have hlyap : lyapAcc llo (valsAt v (afterSteps step m θ) p) (liesAt v (afterSteps step m θ) p (derivs f (afterSteps step m θ) p d)) =
      roaAcc llo (valsAt v (afterSteps step m θ) p) (liesAt v (afterSteps step m θ) p (derivs f (afterSteps step m θ) p d)) := by
    unfold lyapAcc
    rw [if_neg hne, if_neg (fun h => hq0 (h _ hmem))]
  obtain ⟨a, ha⟩ : ∃ a, roaAcc llo (valsAt v (afterSteps step m θ) p) (liesAt v (afterSteps step m θ) p (derivs f (afterSteps step m θ) p d)) = .ok a := by
    have : (liesAt v (afterSteps step m θ) p (derivs f (afterSteps step m θ) p d)).length ≠ 0 := by simpa using hne
    unfold roaAcc percent
    cases llo <;> simp only [if_neg this, if_true, Bool.false_eq_true, if_false] <;> exact ⟨_, rfl⟩
  rw [lyapPass_eq _ v f S Sdot _ p d hl, hlyap, ha]
  refine ⟨_, rfl, ?_⟩
  rw [ha] at hacc
  simp only [Except.ok.injEq] at hacc
  simp only [Bool.and_eq_true, decide_eq_true_eq]
  rw [hacc, and_comm]
  simp only [valsAt, liesAt, List.forall_mem_map]

/-- **C68 (ROA).** With domain and initial samples `learn` does not fail and stops after the first such step; the level is the largest network
output on the initial samples then. -/
theorem C68_roa (llo : Bool) (v : Values Θ P) (out : Θ → P → ℝ) (f : Option (Θ → P → P)) (step : ℕ → Θ → Θ)
    (S Sdot : Dict String (List P)) (θ : Θ) (p d pi : List P) (hl : Labelled f S Sdot XD p d) (hi : Dict.get S XI = .ok pi) (hp : p ≠ [])
    (hpi : pi ≠ []) :
    ∃ n beta, roaLearn llo v out f step S Sdot θ = .ok (afterSteps step n θ, n, beta) ∧
      StopsOnce 1 (fun m => (∀ q ∈ p.zip (derivs f (afterSteps step m θ) p d), v.lie (afterSteps step m θ) q.1 q.2 ≤ 0) ∧
        (llo = false → ∀ x ∈ p, 0 ≤ v.val (afterSteps step m θ) x)) n ∧
      (∀ x ∈ pi, out (afterSteps step n θ) x ≤ beta) ∧ ∃ x ∈ pi, out (afterSteps step n θ) x = beta := by
  have hloop : ∃ n, lyapLearn (roaAcc llo) v f step S Sdot θ = .ok (afterSteps step n θ, n) ∧
      StopsOnce 1 (fun m => (∀ q ∈ p.zip (derivs f (afterSteps step m θ) p d), v.lie (afterSteps step m θ) q.1 q.2 ≤ 0) ∧
        (llo = false → ∀ x ∈ p, 0 ≤ v.val (afterSteps step m θ) x)) n := by
    refine onceLoop_exact (by norm_num) fun m => ?_
    have hlen := (derivs_length hl (afterSteps step m θ)).symm
    have hl0 : (liesAt v (afterSteps step m θ) p (derivs f (afterSteps step m θ) p d)).length ≠ 0 := by
      rw [liesAt_length v _ hlen]; simpa using hp
    have hne : liesAt v (afterSteps step m θ) p (derivs f (afterSteps step m θ) p d) ≠ [] := by simpa using hl0
    have hacc := C44_roa_accuracy llo (valsAt v (afterSteps step m θ) p) (liesAt v (afterSteps step m θ) p (derivs f (afterSteps step m θ) p d))
      (by rw [valsAt_length, liesAt_length v _ hlen]) hne
    obtain ⟨a, ha⟩ : ∃ a, roaAcc llo (valsAt v (afterSteps step m θ) p) (liesAt v (afterSteps step m θ) p (derivs f (afterSteps step m θ) p d)) = .ok a := by
      unfold roaAcc percent
      cases llo <;> simp only [if_neg hl0, if_true, Bool.false_eq_true, if_false] <;> exact ⟨_, rfl⟩
    rw [lyapPass_eq _ v f S Sdot _ p d hl, ha]
    refine ⟨_, rfl, ?_⟩
    rw [ha] at hacc
    simp only [Except.ok.injEq] at hacc
    simp only [Bool.and_eq_true, decide_eq_true_eq]
    rw [hacc, and_comm]
    simp only [valsAt, liesAt, List.forall_mem_map]
  obtain ⟨n, hn, hs⟩ := hloop
  obtain ⟨x, xs, rfl⟩ := List.exists_cons_of_ne_nil hpi
  have hm : ∃ beta, computeMaximum (out (afterSteps step n θ)) (x :: xs) = .ok beta := ⟨_, rfl⟩
  obtain ⟨beta, hb⟩ := hm
  refine ⟨n, beta, ?_, hs, computeMaximum_spec _ _ _ hb⟩
  unfold roaLearn
  simp only [hn, hi, hb, Bind.bind, Except.bind, pure, Except.pure]

/-- **C68 (Barrier).** With an initial or an unsafe sample and as many data as derivative entries, `learn` does not fail; it stops after the
first step (of at most 1000) such that the conditions hold on the samples both after it and before it. -/
theorem C68_barrier (sym : Bool) (v : Values Θ P) (f : Option (Θ → P → P)) (step : ℕ → Θ → Θ) (S Sdot : Dict String (List P)) (θ : Θ)
    (pd pi pu dd di du : List P) (hd : Labelled f S Sdot XD pd dd) (hi : Labelled f S Sdot XI pi di) (hu : Labelled f S Sdot XU pu du)
    (hS : S.length = Sdot.length) (hne : pi ≠ [] ∨ pu ≠ []) :
    ∃ n, barrierLearn (barrierAcc sym) v f step S Sdot θ = .ok (afterSteps step n θ, n) ∧
      StopsTwice (fun m => BarrierOnSamples sym v (afterSteps step m θ) pi pu (pd.zip (derivs f (afterSteps step m θ) pd dd))) n := by
  unfold barrierLearn
  rw [if_pos hS]
  refine twiceLoop_exact fun m => ?_
  rw [C36_barrier_labels _ v f S Sdot _ pd pi pu dd di du hd hi hu]
  exact barrierAcc_exact sym v _ (derivs_length hd _).symm hne

/-- **C68 (BarrierAlt).** The same; there has to be a domain sample. -/
theorem C68_barrierAlt (v : Values Θ P) (f : Option (Θ → P → P)) (step : ℕ → Θ → Θ) (S Sdot : Dict String (List P)) (θ : Θ)
    (pd pi pu dd di du : List P) (hd : Labelled f S Sdot XD pd dd) (hi : Labelled f S Sdot XI pi di) (hu : Labelled f S Sdot XU pu du)
    (hS : S.length = Sdot.length) (hne : pi ≠ [] ∨ pu ≠ []) (hpd : pd ≠ []) :
    ∃ n, barrierLearn barrierAltAcc v f step S Sdot θ = .ok (afterSteps step n θ, n) ∧
      StopsTwice (fun m => BarrierAltOnSamples v (afterSteps step m θ) pi pu (pd.zip (derivs f (afterSteps step m θ) pd dd))) n := by
  unfold barrierLearn
  rw [if_pos hS]
  refine twiceLoop_exact fun m => ?_
  rw [C36_barrier_labels _ v f S Sdot _ pd pi pu dd di du hd hi hu]
  exact barrierAltAcc_exact v _ (derivs_length hd _).symm hne hpd

/-- **C68 (RWA, RWS).** -/
theorem C68_rws (v : Values Θ P) (f : Option (Θ → P → P)) (step : ℕ → Θ → Θ) (S Sdot : Dict String (List P)) (θ : Θ)
    (pd pi pu dd di du : List P) (hd : Labelled f S Sdot XD pd dd) (hi : Labelled f S Sdot XI pi di) (hu : Labelled f S Sdot XU pu du)
    (hS : S.length = Sdot.length) (hne : pi ≠ [] ∨ pu ≠ []) :
    ∃ n, barrierLearn rwsAcc v f step S Sdot θ = .ok (afterSteps step n θ, n) ∧
      StopsTwice (fun m => ReachOnSamples v (afterSteps step m θ) pi pu (pd.zip (derivs f (afterSteps step m θ) pd dd))) n := by
  unfold barrierLearn
  rw [if_pos hS]
  refine twiceLoop_exact fun m => ?_
  rw [C36_barrier_labels _ v f S Sdot _ pd pi pu dd di du hd hi hu]
  exact rwsAcc_exact v _ (derivs_length hd _).symm hne

/-- **C68 (RSWA, RSWS).** The same; there has to be a sample of the goal border. -/
theorem C68_rsws (v : Values Θ P) (f : Option (Θ → P → P)) (step : ℕ → Θ → Θ) (S Sdot : Dict String (List P)) (θ : Θ)
    (pd pi pu pb pg dd di du db dg : List P) (hd : Labelled f S Sdot XD pd dd) (hi : Labelled f S Sdot XI pi di)
    (hu : Labelled f S Sdot XU pu du) (hb : Labelled f S Sdot XGB pb db) (hg : Labelled f S Sdot XG pg dg)
    (hS : S.length = Sdot.length) (hne : pi ≠ [] ∨ pu ≠ []) (hpb : pb ≠ []) :
    ∃ n, rswsLearn v f step S Sdot θ = .ok (afterSteps step n θ, n) ∧
      StopsTwice (fun m => ReachOnSamples v (afterSteps step m θ) pi pu (pd.zip (derivs f (afterSteps step m θ) pd dd))) n := by
  unfold rswsLearn
  rw [if_pos hS]
  refine twiceLoop_exact fun m => ?_
  rw [(C36_rsws_labels v f S Sdot _ pd pi pu pb pg dd di du db dg hd hi hu hb hg).1 hpb]
  exact rwsAcc_exact v _ (derivs_length hd _).symm hne

/-- **C68 (ReachAvoidRemain).** With a controller for every dictionary order, otherwise for the derivative dictionary in label order; the
derivative condition of the reach part has to hold at every sample. -/
theorem C68_rar_partial (sym : Bool) (v b : Values Θ P) (f : Option (Θ → P → P)) (step : ℕ → Θ → Θ)
    (S Sdot : Dict String (List P)) (θ : Θ) (pd pi pu pg pf pn dd di du dg df dn : List P)
    (hd : Labelled f S Sdot XD pd dd) (hi : Labelled f S Sdot XI pi di) (hu : Labelled f S Sdot XU pu du)
    (hg : Labelled f S Sdot XG pg dg) (hf : Labelled f S Sdot XF pf df) (hn : Labelled f S Sdot XNF pn dn)
    (hord : f = none → Sdot = [(XD, dd), (XI, di), (XU, du), (XG, dg), (XF, df), (XNF, dn)])
    (hS : S.length = Sdot.length) (hne : pi ≠ [] ∨ pu ≠ []) (hne' : pg ≠ [] ∨ pn ≠ []) :
    ∃ n, rarLearn sym v b f step S Sdot θ = .ok (afterSteps step n θ, n) ∧
      StopsTwice (fun m => (ReachOnSamples v (afterSteps step m θ) pi pu (pd.zip (derivs f (afterSteps step m θ) pd dd)) ∧
        (∀ q ∈ pd.zip (derivs f (afterSteps step m θ) pd dd), v.val (afterSteps step m θ) q.1 < 0 →
          v.lie (afterSteps step m θ) q.1 q.2 ≤ -(1/100))) ∧
        BarrierOnSamples sym b (afterSteps step m θ) pg pn
          ((pg ++ pf ++ pn).zip (derivs f (afterSteps step m θ) (pg ++ pf ++ pn) (dg ++ df ++ dn)))) n := by
  unfold rarLearn
  rw [if_pos hS]
  refine twiceLoop_exact fun m => ?_
  rw [C36_rar_labels_partial sym v b f S Sdot _ pd pi pu pg pf pn dd di du dg df dn hd hi hu hg hf hn hord]
  obtain ⟨a, ha, hok⟩ := rwsAcc_strict v (afterSteps step m θ) (derivs_length hd _).symm hne
  obtain ⟨c, hc, hok'⟩ := barrierAcc_exact sym b (afterSteps step m θ) (pi := pg) (pu := pn) (pd := pg ++ pf ++ pn)
    (d := derivs f (afterSteps step m θ) (pg ++ pf ++ pn) (dg ++ df ++ dn)) (by
      rw [derivs_append, derivs_append]
      simp [derivs_length hg, derivs_length hf, derivs_length hn]) hne'
  rw [ha, hc]
  refine ⟨(a, c), rfl, ?_⟩
  rw [← hok, ← hok']
  simp only [rarOk, barrierOk, Bool.and_eq_true, decide_eq_true_eq, and_assoc]
  have hle : c.1 ≤ 100 := by
    unfold barrierAcc at hc
    obtain ⟨iu, b1, b2⟩ := except_bind_ok hc
    have : c.1 = iu := by
      simp only at b2
      split at b2 <;> (cases b2; rfl)
    rw [this]
    exact initUnsafe_le b1
  constructor
  · rintro ⟨h1, h2, h3, h4⟩
    exact ⟨h1, h2, le_antisymm hle h3, h4⟩
  · rintro ⟨h1, h2, h3, h4⟩
    exact ⟨h1, h2, h3.ge, h4⟩

/-- **C68 (StableSafe), data dictionary in the order XD, XI, XU.** -/
theorem C68_stablesafe_partial (llo sym : Bool) (v b : Values Θ P) (out : Θ → P → ℝ) (f : Option (Θ → P → P)) (step : ℕ → Θ → Θ)
    (θ : Θ) (pd pi pu dd di du : List P)
    (hl : f = none → dd.length = pd.length ∧ di.length = pi.length ∧ du.length = pu.length) (hpd : pd ≠ []) (hpi : pi ≠ []) :
    ∃ n beta, safeRoaLearn llo sym v b out f step [(XD, pd), (XI, pi), (XU, pu)] [(XD, dd), (XI, di), (XU, du)] θ =
        .ok (afterSteps step n θ, n, beta) ∧
      StopsOnce 2 (fun m => ((∀ q ∈ pd.zip (derivs f (afterSteps step m θ) pd dd), v.lie (afterSteps step m θ) q.1 q.2 ≤ 0) ∧
          (llo = false → ∀ x ∈ pd, 0 ≤ v.val (afterSteps step m θ) x)) ∧
        BarrierOnSamples sym b (afterSteps step m θ) pi pu (pd.zip (derivs f (afterSteps step m θ) pd dd))) n ∧
      (∀ x ∈ pi, out (afterSteps step n θ) x ≤ beta) ∧ ∃ x ∈ pi, out (afterSteps step n θ) x = beta := by
  have hlen : ∀ m, pd.length = (derivs f (afterSteps step m θ) pd dd).length := by
    intro m
    cases f with
    | none => exact (hl rfl).1.symm
    | some f => simp [derivs]
  have hloop := onceLoop_exact (k := 2) (by norm_num) (step := step) (θ := θ)
    (check := fun t (_ : Unit) θ => do
      let a ← safeRoaPass llo sym v b f [(XD, pd), (XI, pi), (XU, pu)] [(XD, dd), (XI, di), (XU, du)] θ
      return (decide (1 < t) && decide (a.1 = 100) && decide (a.2.1 = 100) && decide (999/10 ≤ a.2.2), ()))
    (C := fun m => ((∀ q ∈ pd.zip (derivs f (afterSteps step m θ) pd dd), v.lie (afterSteps step m θ) q.1 q.2 ≤ 0) ∧
          (llo = false → ∀ x ∈ pd, 0 ≤ v.val (afterSteps step m θ) x)) ∧
        BarrierOnSamples sym b (afterSteps step m θ) pi pu (pd.zip (derivs f (afterSteps step m θ) pd dd))) (by
      intro m
      rw [C36_stablesafe_labels_partial llo sym v b f _ pd pi pu dd di du hl]
      obtain ⟨a, ha, hok⟩ := roaAcc_exact llo v (afterSteps step m θ) (hlen m) hpd
      obtain ⟨c, hc, hok'⟩ := barrierAcc_exact sym b (afterSteps step m θ) (hlen m) (pu := pu) (Or.inl hpi)
      rw [ha, hc]
      refine ⟨_, rfl, ?_⟩
      rw [← hok, ← hok']
      simp only [barrierOk, Bool.and_eq_true, decide_eq_true_eq, and_assoc]
      exact Iff.rfl)
  obtain ⟨n, hn, hs⟩ := hloop
  obtain ⟨x, xs, rfl⟩ := List.exists_cons_of_ne_nil hpi
  obtain ⟨beta, hb⟩ : ∃ beta, computeMaximum (out (afterSteps step n θ)) (x :: xs) = .ok beta := ⟨_, rfl⟩
  refine ⟨n, beta, ?_, hs, computeMaximum_spec _ _ _ hb⟩
  unfold safeRoaLearn
  rw [if_pos (by rfl)]
  have hi : Dict.get [(XD, pd), (XI, x :: xs), (XU, pu)] XI = Except.ok (x :: xs) := rfl
  simp only [Bind.bind, Except.bind, pure, Except.pure] at hn ⊢
  rw [hn]
  simp only [hi, hb]

/-! ### the output layer at construction -/

/-- **C68 (output layer).** The weights of the output layer at construction are all one if positivity is by construction and the last
activation does not need a projection; otherwise they are the random ones. The number of weights is that of the last hidden layer in either
case, and the bias is the random one, if there is one. -/
theorem C68_output_layer (llo abs bias : Bool) (w : List ℚ) (b : ℚ) :
    ((llo = true ∧ abs = false → (initLastLayer llo abs bias w b).weight = [List.replicate w.length 1]) ∧
     (¬ (llo = true ∧ abs = false) → (initLastLayer llo abs bias w b).weight = [w])) ∧
    (initLastLayer llo abs bias w b).bias = if bias then some [b] else none := by
  cases llo <;> cases abs <;> simp [initLastLayer]

/-- **C68 (warning).** There is no warning about positivity unless positivity was asked for; if it was, a warning comes exactly if the output
layer has a bias or the last activation is not one of those listed as positive. -/
theorem C68_warning (net : Net) (acts : List Act) (a : Act) (layers : List Layer) (l : Layer) (n : ℕ) :
    lloWarning false net = .ok false ∧
    ∃ w, lloWarning true ⟨n, layers ++ [l], acts ++ [a]⟩ = .ok w ∧ (w = true ↔ l.bias ≠ none ∨ a.isPD = false) := by
  refine ⟨rfl, !(a.isPD && l.bias.isNone), ?_, ?_⟩
  · simp [lloWarning, Net.isPositiveDefinite, Bind.bind, Except.bind, pure, Except.pure]
  · cases l.bias <;> cases a.isPD <;> simp

/-! ### concrete runs -/

/-- A run of each exact theorem: the hypotheses hold for data in any dictionary order. -/
example : ∃ n, lyapLearn (lyapAcc false) (⟨fun θ x => θ * x ^ 2, fun θ x d => 2 * θ * x * d⟩ : Values ℝ ℝ) none (fun _ _ => 1)
    [(XD, [1])] [(XD, [-1])] (-1) = .ok (afterSteps (fun _ _ => 1) n (-1), n) ∧ n = 1 := by
  obtain ⟨n, h, -⟩ := C68_lyapunov false (⟨fun θ x => θ * x ^ 2, fun θ x d => 2 * θ * x * d⟩ : Values ℝ ℝ) none (fun _ _ => 1)
    [(XD, [1])] [(XD, [-1])] (-1) [1] [-1] ⟨rfl, fun _ => ⟨rfl, rfl⟩⟩ (by
      intro m
      refine ⟨(1, -1), by simp [derivs], ?_⟩
      cases m <;> simp [afterSteps])
  refine ⟨n, h, ?_⟩
  rw [exLyapRun] at h
  simp only [Except.ok.injEq, Prod.mk.injEq] at h
  exact h.2.symm

/-- The value functions of the examples below: `V = x`, derivative the given one. -/
def exLinear : Values Unit ℝ := ⟨fun _ x => x, fun _ _ d => d⟩

/-- The conditions of RSWS hold on these samples from the start, so training stops after one step. -/
example : rswsLearn exLinear none (fun _ _ => ()) [(XU, [1]), (XI, [-1]), (XD, [-1/2]), (XGB, [-2]), (XG, [-3])]
    [(XU, [-1]), (XI, [-1]), (XD, [-1]), (XGB, [-1]), (XG, [-1])] () = .ok ((), 1) := by
  obtain ⟨n, h, hs⟩ := C68_rsws exLinear none (fun _ _ => ()) [(XU, [1]), (XI, [-1]), (XD, [-1/2]), (XGB, [-2]), (XG, [-3])]
    [(XU, [-1]), (XI, [-1]), (XD, [-1]), (XGB, [-1]), (XG, [-1])] () [-1/2] [-1] [1] [-2] [-3] [-1] [-1] [-1] [-1] [-1]
    ⟨rfl, fun _ => ⟨rfl, rfl⟩⟩ ⟨rfl, fun _ => ⟨rfl, rfl⟩⟩ ⟨rfl, fun _ => ⟨rfl, rfl⟩⟩ ⟨rfl, fun _ => ⟨rfl, rfl⟩⟩ ⟨rfl, fun _ => ⟨rfl, rfl⟩⟩
    rfl (Or.inl (by simp)) (by simp)
  have hC : ∀ m, ReachOnSamples exLinear (afterSteps (fun _ _ => ()) m ()) [-1] [1] ([-1/2].zip (derivs none (afterSteps (fun _ _ => ()) m ()) [-1/2] [-1])) := by
    intro m
    refine ⟨?_, ?_, ?_⟩
    · simp [exLinear]
    · simp [exLinear]
    · refine ⟨⟨(-1/2, -1), by simp [derivs], by norm_num [exLinear]⟩, ?_, ?_⟩
      · norm_num [exLinear, derivs]
      · norm_num [exLinear, derivs]
  have : n = 1 := hs.unique ⟨le_refl 1, by norm_num, fun _ => ⟨hC _, hC _⟩, fun m h1 h2 => absurd h2 (by omega)⟩
  rw [h, this]

/-- Likewise for ReachAvoidRemain, without a controller and with the dictionaries in label order. -/
example : rarLearn false exLinear exLinear none (fun _ _ => ())
    [(XD, [-1/2]), (XI, [-1]), (XU, [1]), (XG, [-3]), (XF, [-2]), (XNF, [2])]
    [(XD, [-1]), (XI, [-1]), (XU, [-1]), (XG, [-1]), (XF, [-1]), (XNF, [-1])] () = .ok ((), 1) := by
  obtain ⟨n, h, hs⟩ := C68_rar_partial false exLinear exLinear none (fun _ _ => ())
    [(XD, [-1/2]), (XI, [-1]), (XU, [1]), (XG, [-3]), (XF, [-2]), (XNF, [2])]
    [(XD, [-1]), (XI, [-1]), (XU, [-1]), (XG, [-1]), (XF, [-1]), (XNF, [-1])] ()
    [-1/2] [-1] [1] [-3] [-2] [2] [-1] [-1] [-1] [-1] [-1] [-1]
    ⟨rfl, fun _ => ⟨rfl, rfl⟩⟩ ⟨rfl, fun _ => ⟨rfl, rfl⟩⟩ ⟨rfl, fun _ => ⟨rfl, rfl⟩⟩ ⟨rfl, fun _ => ⟨rfl, rfl⟩⟩ ⟨rfl, fun _ => ⟨rfl, rfl⟩⟩
    ⟨rfl, fun _ => ⟨rfl, rfl⟩⟩ (fun _ => rfl) rfl (Or.inl (by simp)) (Or.inl (by simp))
  have : n = 1 := by
    refine hs.unique ⟨le_refl 1, by norm_num, fun _ => ?_, fun m h1 h2 => absurd h2 (by omega)⟩
    have hC : ∀ θ : Unit, (ReachOnSamples exLinear θ [-1] [1] ([-1/2].zip (derivs none θ [-1/2] [-1])) ∧
        (∀ q ∈ [(-1/2 : ℝ)].zip (derivs none θ [-1/2] [-1]), exLinear.val θ q.1 < 0 → exLinear.lie θ q.1 q.2 ≤ -(1/100))) ∧
        BarrierOnSamples false exLinear θ [-3] [2] (([(-3 : ℝ)] ++ [-2] ++ [2]).zip (derivs none θ ([(-3 : ℝ)] ++ [-2] ++ [2]) ([(-1 : ℝ)] ++ [-1] ++ [-1]))) := by
      intro θ
      refine ⟨⟨⟨by simp [exLinear], by simp [exLinear], ⟨(-1/2, -1), by simp [derivs], by norm_num [exLinear]⟩, ?_, ?_⟩, ?_⟩,
        by simp [exLinear], by simp [exLinear], ⟨(2, -1), by simp [derivs], by norm_num [exLinear]⟩, ?_, ?_⟩
      all_goals norm_num [exLinear, derivs]
    exact ⟨hC _, hC _⟩
  rw [h, this]

end Fossil

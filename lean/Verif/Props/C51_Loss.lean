/-
C51: what a small loss says about the samples.
-/
import Verif.Loss

namespace Fossil

/-! ### means -/

theorem meanOf_some {l : List ℝ} {m : ℝ} : meanOf l = some m ↔ l ≠ [] ∧ m = l.sum / l.length := by
  unfold meanOf
  by_cases h : l = []
  · simp [h]
  · rw [if_neg h]; simp [h, eq_comm]

theorem nanAdd_some {a b : Option ℝ} {m : ℝ} : nanAdd a b = some m ↔ ∃ x y, a = some x ∧ b = some y ∧ m = x + y := by
  cases a <;> cases b <;> simp [nanAdd, eq_comm]

theorem length_pos_real {l : List ℝ} (h : l ≠ []) : (0 : ℝ) < l.length := by
  exact_mod_cast List.length_pos_of_ne_nil h

/-- The mean of nonnegative numbers is nonnegative, and zero exactly if all are. -/
theorem meanOf_nonneg {l : List ℝ} {m : ℝ} (h : meanOf l = some m) (h0 : ∀ x ∈ l, 0 ≤ x) :
    0 ≤ m ∧ (m = 0 ↔ ∀ x ∈ l, x = 0) ∧ ∀ x ∈ l, x ≤ l.length * m := by
  obtain ⟨hne, rfl⟩ := meanOf_some.1 h
  have hp := length_pos_real hne
  have hs := List.sum_nonneg h0
  have hle : ∀ x ∈ l, x ≤ l.sum := fun x hx => List.single_le_sum h0 x hx
  refine ⟨div_nonneg hs hp.le, ?_, ?_⟩
  · rw [div_eq_zero_iff]
    constructor
    · rintro (h | h)
      · exact fun x hx => le_antisymm (h ▸ hle x hx) (h0 x hx)
      · exact absurd h hp.ne'
    · intro h
      left
      exact List.sum_eq_zero h
  · intro x hx
    rw [mul_div_cancel₀ _ hp.ne']
    exact hle x hx

theorem splus_pos {β : ℝ} (hβ : 0 < β) (x : ℝ) : 0 < splus β x := by
  unfold splus
  apply div_pos _ hβ
  apply Real.log_pos
  have := Real.exp_pos (β * x)
  linarith

theorem splus_lt {β : ℝ} (hβ : 0 < β) {x : ℝ} (h : splus β x < Real.log 2 / β) : x < 0 := by
  unfold splus at h
  rw [div_lt_div_iff_of_pos_right hβ] at h
  have h1 : (0:ℝ) < 1 + Real.exp (β * x) := by positivity
  rw [Real.log_lt_log_iff h1 (by norm_num)] at h
  have h2 : Real.exp (β * x) < 1 := by linarith
  rw [Real.exp_lt_one_iff] at h2
  by_contra hx
  have := mul_nonneg hβ.le (not_lt.1 hx)
  linarith

/-- A small mean of softplus values bounds every argument. -/
theorem mean_splus_small {α : Type _} {β : ℝ} (hβ : 0 < β) (f : α → ℝ) {l : List α} {m : ℝ} {N : ℕ}
    (h : meanOf (l.map (fun a => splus β (f a))) = some m) (hN : l.length ≤ N) (hm : N * m < Real.log 2 / β) :
    ∀ a ∈ l, f a < 0 := by
  intro a ha
  have h0 : ∀ x ∈ l.map (fun a => splus β (f a)), 0 ≤ x := by
    intro x hx
    obtain ⟨b, _, rfl⟩ := List.mem_map.1 hx
    exact (splus_pos hβ _).le
  obtain ⟨h1, _, h2⟩ := meanOf_nonneg h h0
  have h3 := h2 _ (List.mem_map.2 ⟨a, ha, rfl⟩)
  apply splus_lt hβ
  refine lt_of_le_of_lt h3 (lt_of_le_of_lt ?_ hm)
  rw [List.length_map]
  exact mul_le_mul_of_nonneg_right (by exact_mod_cast hN) h1

theorem mean_splus_pos {α : Type _} {β : ℝ} (hβ : 0 < β) (f : α → ℝ) {l : List α} {m : ℝ}
    (h : meanOf (l.map (fun a => splus β (f a))) = some m) : 0 < m := by
  obtain ⟨hne, rfl⟩ := meanOf_some.1 h
  apply div_pos _ (length_pos_real hne)
  obtain ⟨a, ha⟩ := List.exists_mem_of_ne_nil _ hne
  have h0 : ∀ x ∈ l.map (fun a => splus β (f a)), 0 ≤ x := by
    intro x hx
    obtain ⟨b, _, rfl⟩ := List.mem_map.1 hx
    exact (splus_pos hβ _).le
  refine lt_of_lt_of_le ?_ (List.single_le_sum h0 a ha)
  obtain ⟨b, _, rfl⟩ := List.mem_map.1 ha
  exact splus_pos hβ _

/-! ### barrier -/

open Classical in
theorem mem_beltVals {symmetric : Bool} {Bd Bdotd : List ℝ} {v : ℝ} : v ∈ beltVals symmetric Bd Bdotd ↔
    ∃ b, (b, v) ∈ Bd.zip Bdotd ∧ (if symmetric then |b| ≤ 1/2 else 0 ≤ b) := by
  unfold beltVals
  simp only [List.mem_map, List.mem_filter, Prod.exists]
  constructor
  · rintro ⟨a, b, ⟨h1, h2⟩, rfl⟩
    refine ⟨a, h1, ?_⟩
    cases symmetric <;> simpa using h2
  · rintro ⟨b, h1, h2⟩
    refine ⟨b, v, ⟨h1, ?_⟩, rfl⟩
    cases symmetric <;> simpa using h2

/-- C51, barrier certificate. With initial and unsafe samples present, the loss is a nonnegative number, and it is zero exactly if every
initial sample has `B ≤ 0`, every unsafe sample `B ≥ 0`, and every domain sample in the belt a nonpositive derivative. -/
theorem C51_barrier_loss (symmetric : Bool) (Bi Bu Bd Bdotd : List ℝ) (hi : Bi ≠ []) (hu : Bu ≠ []) :
    ∃ m, barrierLoss (fun t => max t 0) symmetric Bi Bu Bd Bdotd = some m ∧ 0 ≤ m ∧
      (m = 0 ↔ (∀ b ∈ Bi, b ≤ 0) ∧ (∀ b ∈ Bu, 0 ≤ b) ∧
        ∀ q ∈ Bd.zip Bdotd, (if symmetric then |q.1| ≤ 1/2 else 0 ≤ q.1) → q.2 ≤ 0) := by
  have hmean : ∀ (l : List ℝ) (f : ℝ → ℝ), l ≠ [] → ∃ m, meanOf (l.map (fun t => max (f t) 0)) = some m ∧ 0 ≤ m ∧
      (m = 0 ↔ ∀ t ∈ l, f t ≤ 0) := by
    intro l f hl
    have hne : l.map (fun t => max (f t) 0) ≠ [] := by simpa using hl
    have he : meanOf (l.map (fun t => max (f t) 0)) = some ((l.map (fun t => max (f t) 0)).sum / (l.map (fun t => max (f t) 0)).length) :=
      meanOf_some.2 ⟨hne, rfl⟩
    obtain ⟨h1, h2, _⟩ := meanOf_nonneg he (by
      intro x hx
      obtain ⟨b, _, rfl⟩ := List.mem_map.1 hx
      exact le_max_right _ _)
    refine ⟨_, he, h1, h2.trans ?_⟩
    constructor
    · intro h t ht
      have := h _ (List.mem_map.2 ⟨t, ht, rfl⟩)
      rw [max_eq_right_iff] at this
      exact this
    · intro h x hx
      obtain ⟨b, hb, rfl⟩ := List.mem_map.1 hx
      exact max_eq_right (h b hb)
  obtain ⟨mi, i1, i2, i3⟩ := hmean Bi (fun t => t) hi
  obtain ⟨mu, u1, u2, u3⟩ := hmean Bu (fun t => -t) hu
  have hbelt : (∀ v ∈ beltVals symmetric Bd Bdotd, v ≤ 0) ↔
      ∀ q ∈ Bd.zip Bdotd, (if symmetric then |q.1| ≤ 1/2 else 0 ≤ q.1) → q.2 ≤ 0 := by
    constructor
    · intro h q hq hb
      exact h q.2 (mem_beltVals.2 ⟨q.1, hq, hb⟩)
    · intro h v hv
      obtain ⟨b, h1, h2⟩ := mem_beltVals.1 hv
      exact h (b, v) h1 h2
  rw [← hbelt]
  have hu' : (mu = 0 ↔ ∀ b ∈ Bu, 0 ≤ b) := by simpa using u3
  simp only [barrierLoss]
  rw [i1, u1]
  by_cases hb : beltVals symmetric Bd Bdotd = []
  · rw [if_pos hb]
    refine ⟨mi + mu, rfl, by linarith, ?_⟩
    rw [hb, ← i3, ← hu', add_eq_zero_iff_of_nonneg i2 u2]
    simp
  · rw [if_neg hb]
    obtain ⟨mb, b1, b2, b3⟩ := hmean _ (fun t => t) hb
    refine ⟨mi + mu + mb, by rw [b1]; rfl, by linarith, ?_⟩
    rw [← i3, ← hu', ← b3, add_eq_zero_iff_of_nonneg (by linarith) b2, add_eq_zero_iff_of_nonneg i2 u2]
    tauto

example : barrierLoss (fun t => max t 0) true [-1, -2] [3] [0, 2] [-1, 5] = some 0 := by
  obtain ⟨m, h1, _, h3⟩ := C51_barrier_loss true [-1, -2] [3] [0, 2] [-1, 5] (by simp) (by simp)
  rw [h1, h3.2 ?_]
  refine ⟨by intro b hb; simp at hb; rcases hb with rfl | rfl <;> norm_num, by intro b hb; simp at hb; subst hb; norm_num, ?_⟩
  intro q hq
  simp at hq
  rcases hq with rfl | rfl <;> norm_num

/-- C51: without initial or without unsafe samples the barrier loss is not a number. -/
theorem C51_barrier_loss_nan (relu : ℝ → ℝ) (symmetric : Bool) (Bi Bu Bd Bdotd : List ℝ) (h : Bi = [] ∨ Bu = []) :
    barrierLoss relu symmetric Bi Bu Bd Bdotd = none := by
  have : nanAdd (meanOf (Bi.map relu)) (meanOf (Bu.map (fun b => relu (-b)))) = none := by
    rcases h with rfl | rfl
    · simp [meanOf, nanAdd]
    · simp only [List.map_nil, meanOf, if_true]
      split_ifs <;> rfl
  unfold barrierLoss
  simp only [this]
  split_ifs <;> rfl

/-! ### softplus losses -/

/-- C51, ROA: the loss is positive; once it is below `ln 2 / N` on `N` samples, every derivative is negative and (without LLO) every value
positive. -/
theorem C51_roa_loss (llo : Bool) (V Vdot : List ℝ) (m : ℝ) (h : roaLoss llo V Vdot = some m) :
    0 < m ∧ ∀ N : ℕ, V.length ≤ N → Vdot.length ≤ N → N * m < Real.log 2 →
      (∀ v ∈ Vdot, v < 0) ∧ (llo = false → ∀ v ∈ V, 0 < v) := by
  unfold roaLoss at h
  cases llo with
  | true =>
    simp only [if_true] at h
    refine ⟨mean_splus_pos one_pos (fun v => v) h, fun N _ hN hm => ⟨?_, by simp⟩⟩
    exact mean_splus_small one_pos (fun v => v) h hN (by simpa using hm)
  | false =>
    simp only [Bool.false_eq_true, if_false] at h
    obtain ⟨x, y, hx, hy, rfl⟩ := nanAdd_some.1 h
    have px := mean_splus_pos one_pos (fun v => v) hx
    have py := mean_splus_pos one_pos (fun v => -v) hy
    refine ⟨by linarith, fun N hV hN hm => ⟨?_, fun _ => ?_⟩⟩
    · refine mean_splus_small one_pos (fun v => v) hx hN (by simp only [div_one]; nlinarith [(Nat.cast_nonneg N : (0:ℝ) ≤ N)])
    · intro v hv
      have := mean_splus_small one_pos (fun v => -v) hy hV (by simp only [div_one]; nlinarith [(Nat.cast_nonneg N : (0:ℝ) ≤ N)]) v hv
      linarith

example : ∃ m, roaLoss false [1, 2] [-1, -3] = some m := ⟨_, by simp [roaLoss, meanOf, nanAdd]; rfl⟩

/-- C51, alternative barrier: the loss is positive; below `2 ln 2 / N` every sample satisfies its condition with the margin 0.05. -/
theorem C51_barrierAlt_loss (Bi Bu Bdotd : List ℝ) (m : ℝ) (h : barrierAltLoss Bi Bu Bdotd = some m) :
    0 < m ∧ ∀ N : ℕ, Bi.length ≤ N → Bu.length ≤ N → Bdotd.length ≤ N → N * m < 2 * Real.log 2 →
      (∀ b ∈ Bi, b < -(1/20)) ∧ (∀ b ∈ Bu, 1/20 < b) ∧ ∀ b ∈ Bdotd, b < -(1/20) := by
  have h2 : (0:ℝ) < 1/2 := by norm_num
  obtain ⟨a, z, ha, hz, rfl⟩ := nanAdd_some.1 h
  obtain ⟨x, y, hx, hy, rfl⟩ := nanAdd_some.1 ha
  have px := mean_splus_pos h2 (fun b => b + 1/20) hx
  have py := mean_splus_pos h2 (fun b => -b + 1/20) hy
  have pz := mean_splus_pos h2 (fun b => b + 1/20) hz
  refine ⟨by linarith, fun N n1 n2 n3 hm => ?_⟩
  have hN : (0:ℝ) ≤ N := Nat.cast_nonneg N
  have e : Real.log 2 / (1/2) = 2 * Real.log 2 := by ring
  have k1 := mean_splus_small h2 (fun b => b + 1/20) hx n1 (by rw [e]; nlinarith)
  have k2 := mean_splus_small h2 (fun b => -b + 1/20) hy n2 (by rw [e]; nlinarith)
  have k3 := mean_splus_small h2 (fun b => b + 1/20) hz n3 (by rw [e]; nlinarith)
  exact ⟨fun b hb => by linarith [k1 b hb], fun b hb => by linarith [k2 b hb], fun b hb => by linarith [k3 b hb]⟩

example : ∃ m, barrierAltLoss [-1] [1] [-1, -1] = some m := ⟨_, by simp [barrierAltLoss, meanOf, nanAdd]; rfl⟩

open Classical in
theorem mem_lieVals {Vd Vdotd : List ℝ} {v : ℝ} : v ∈ lieVals Vd Vdotd ↔ ∃ b, (b, v) ∈ Vd.zip Vdotd ∧ b < 0 := by
  unfold lieVals
  simp only [List.mem_map, List.mem_filter, Prod.exists, decide_eq_true_eq]
  constructor
  · rintro ⟨a, b, ⟨h1, h2⟩, rfl⟩; exact ⟨a, h1, h2⟩
  · rintro ⟨b, h1, h2⟩; exact ⟨b, v, ⟨h1, h2⟩, rfl⟩

/-- C51, reach-while-avoid: if some domain sample has a negative value, the loss is positive and below `ln 2 / N` every initial sample is
negative, every unsafe sample positive, and the derivative at every negative domain sample is below -0.01. -/
theorem C51_rws_loss_partial (Vi Vu Vd Vdotd : List ℝ) (m : ℝ) (h : rwsLoss Vi Vu Vd Vdotd = some m)
    (hneg : ∃ q ∈ Vd.zip Vdotd, q.1 < 0) :
    0 < m ∧ ∀ N : ℕ, Vi.length ≤ N → Vu.length ≤ N → Vd.length ≤ N → N * m < Real.log 2 →
      (∀ v ∈ Vi, v < 0) ∧ (∀ v ∈ Vu, 0 < v) ∧ ∀ q ∈ Vd.zip Vdotd, q.1 < 0 → q.2 < -(1/100) := by
  obtain ⟨q0, hq0, hq0'⟩ := hneg
  have hne : lieVals Vd Vdotd ≠ [] := List.ne_nil_of_mem (mem_lieVals.2 ⟨q0.1, hq0, hq0'⟩)
  simp only [rwsLoss, if_neg hne] at h
  obtain ⟨a, z, ha, hz, rfl⟩ := nanAdd_some.1 h
  obtain ⟨x, y, hx, hy, rfl⟩ := nanAdd_some.1 ha
  have px := mean_splus_pos one_pos (fun b => b) hx
  have py := mean_splus_pos one_pos (fun b => -b) hy
  have pz := mean_splus_pos one_pos (fun b => b + 1/100) hz
  refine ⟨by linarith, fun N n1 n2 n3 hm => ?_⟩
  have hN : (0:ℝ) ≤ N := Nat.cast_nonneg N
  have n3' : (lieVals Vd Vdotd).length ≤ N := by
    refine le_trans ?_ n3
    unfold lieVals
    rw [List.length_map]
    refine (List.length_filter_le _ _).trans ?_
    rw [List.length_zip]; exact min_le_left _ _
  have k1 := mean_splus_small one_pos (fun b => b) hx n1 (by simp only [div_one]; nlinarith)
  have k2 := mean_splus_small one_pos (fun b => -b) hy n2 (by simp only [div_one]; nlinarith)
  have k3 := mean_splus_small one_pos (fun b => b + 1/100) hz n3' (by simp only [div_one]; nlinarith)
  exact ⟨k1, fun b hb => by linarith [k2 b hb], fun q hq hlt => by linarith [k3 q.2 (mem_lieVals.2 ⟨q.1, hq, hlt⟩)]⟩

example : (∃ m, rwsLoss [-1] [1] [-1, 2] [-1, 0] = some m) ∧ ∃ q ∈ ([-1, 2] : List ℝ).zip [-1, 0], q.1 < 0 := by
  refine ⟨?_, (-1, -1), by simp, by norm_num⟩
  have hne : lieVals [-1, 2] [-1, 0] ≠ [] := List.ne_nil_of_mem ((mem_lieVals (v := -1)).2 ⟨-1, by simp, by norm_num⟩)
  simp only [rwsLoss, if_neg hne, meanOf, List.map_cons, List.cons_ne_nil, if_false, List.map_eq_nil_iff, hne, nanAdd]
  exact ⟨_, rfl⟩

/-- C51, the full statement fails for reach-while-avoid: without a negative domain sample the unsafe samples are ignored; arbitrarily bad unsafe
samples then do not change the loss. -/
theorem C51_rws_ignores_unsafe (Vi Vu Vu' Vd Vdotd : List ℝ) (h : ∀ v ∈ Vd, 0 ≤ v) :
    rwsLoss Vi Vu Vd Vdotd = rwsLoss Vi Vu' Vd Vdotd := by
  have he : lieVals Vd Vdotd = [] := by
    rw [List.eq_nil_iff_forall_not_mem]
    intro v hv
    obtain ⟨b, h1, h2⟩ := mem_lieVals.1 hv
    exact absurd (h b (List.of_mem_zip h1).1) (not_le.2 h2)
  simp [rwsLoss, he]

/-- C51, reach-and-stay: the extra term; once it is below `ln 2 / N`, the derivative at every goal sample with `V ≤ beta` is below -0.01. -/
theorem C51_beta_loss (β : ℝ) (Vg Vdotg : List ℝ) (m : ℝ) (h : betaLoss β Vg Vdotg = some m) :
    0 ≤ m ∧ ∀ N : ℕ, Vg.length ≤ N → N * m < Real.log 2 → ∀ q ∈ Vg.zip Vdotg, q.1 ≤ β → q.2 < -(1/100) := by
  classical
  have hmem : ∀ q ∈ Vg.zip Vdotg, q.1 ≤ β → q.2 ∈ ((Vg.zip Vdotg).filter (fun q => decide (q.1 ≤ β))).map Prod.snd :=
    fun q hq hb => List.mem_map.2 ⟨q, List.mem_filter.2 ⟨hq, by simpa using hb⟩, rfl⟩
  unfold betaLoss at h
  have hconv : (fun q : ℝ × ℝ => @decide (q.1 ≤ β) (Classical.propDecidable _)) = fun q => decide (q.1 ≤ β) := by
    funext q; congr
  simp only [hconv] at h
  by_cases he : ((Vg.zip Vdotg).filter (fun q => decide (q.1 ≤ β))).map Prod.snd = []
  · rw [if_pos he] at h
    cases h
    refine ⟨le_rfl, fun N _ _ q hq hb => ?_⟩
    have := hmem q hq hb
    rw [he] at this
    cases this
  · rw [if_neg he] at h
    have p := mean_splus_pos one_pos (fun b => b + 1/100) h
    refine ⟨p.le, fun N hN hm q hq hb => ?_⟩
    have hl : (((Vg.zip Vdotg).filter (fun q => decide (q.1 ≤ β))).map Prod.snd).length ≤ N := by
      rw [List.length_map]
      refine (List.length_filter_le _ _).trans ?_
      rw [List.length_zip]; exact (min_le_left _ _).trans hN
    have := mean_splus_small one_pos (fun b => b + 1/100) h hl (by simpa using hm) q.2 (hmem q hq hb)
    linarith

example : ∃ m, betaLoss 0 [-1, 1] [-2, 3] = some m := by
  unfold betaLoss
  simp only
  split_ifs with h
  · exact ⟨_, rfl⟩
  · rw [meanOf, if_neg (mt List.map_eq_nil_iff.1 h)]
    exact ⟨_, rfl⟩

/-- C51, reach-and-stay: the loss is the sum of the two terms. -/
theorem C51_rsws_loss_sum (Vi Vu Vd Vdotd : List ℝ) (β : ℝ) (Vg Vdotg : List ℝ) (m : ℝ)
    (h : rswsLoss Vi Vu Vd Vdotd β Vg Vdotg = some m) : ∃ a b, rwsLoss Vi Vu Vd Vdotd = some a ∧ betaLoss β Vg Vdotg = some b ∧
      m = a + b ∧ a ≤ m := by
  obtain ⟨a, b, ha, hb, rfl⟩ := nanAdd_some.1 h
  exact ⟨a, b, ha, hb, rfl, by linarith [(C51_beta_loss β Vg Vdotg b hb).1]⟩

/-! ### Lyapunov -/

theorem leaky_nonpos {s x : ℝ} (hs : 0 ≤ s) (hx : x ≤ 0) : leaky s x ≤ 0 := by
  unfold leaky
  rw [max_eq_left hx, min_eq_right hx]
  nlinarith

theorem magnitude_pos (x : ℝ) : 0 < magnitude x := by unfold magnitude; positivity

theorem meanOf_nonpos {l : List ℝ} {m : ℝ} (h : meanOf l = some m) (h0 : ∀ x ∈ l, x ≤ 0) : m ≤ 0 := by
  obtain ⟨hne, rfl⟩ := meanOf_some.1 h
  apply div_nonpos_of_nonpos_of_nonneg _ (length_pos_real hne).le
  have : (l.map (fun x => -x)).sum = -l.sum := by
    clear h hne h0
    induction l with
    | nil => simp
    | cons a l ih => simp [ih]; ring
  have h1 : 0 ≤ (l.map (fun x => -x)).sum := by
    apply List.sum_nonneg
    intro x hx
    obtain ⟨y, hy, rfl⟩ := List.mem_map.1 hx
    linarith [h0 y hy]
  linarith

/-- C51, Lyapunov: a positive loss reveals a violated sample (one direction of the claim). -/
theorem C51_lyapunov_loss_partial (llo : Bool) (V Vdot : List ℝ) (m : ℝ) (h : lyapLoss llo V Vdot = .ok (some m)) (hm : 0 < m) :
    (∃ v ∈ Vdot, 0 < v) ∨ (llo = false ∧ ∃ v ∈ V, v < 0) := by
  by_contra hc
  push Not at hc
  obtain ⟨h1, h2⟩ := hc
  unfold lyapLoss at h
  split_ifs at h with a b c
  · simp only [Except.ok.injEq] at h
    have := meanOf_nonpos h (by
      intro x hx
      obtain ⟨v, hv, rfl⟩ := List.mem_map.1 hx
      exact leaky_nonpos (by have := magnitude_pos (absMax Vdot); positivity) (h1 v hv))
    linarith
  · simp only [Except.ok.injEq] at h
    obtain ⟨x, y, hx, hy, rfl⟩ := nanAdd_some.1 h
    have hs : 0 ≤ 1 / magnitude (absMax Vdot) := by have := magnitude_pos (absMax Vdot); positivity
    have k1 := meanOf_nonpos hx (by
      intro x hx
      obtain ⟨v, hv, rfl⟩ := List.mem_map.1 hx
      exact leaky_nonpos hs (h1 v hv))
    have k2 := meanOf_nonpos hy (by
      intro x hx
      obtain ⟨v, hv, rfl⟩ := List.mem_map.1 hx
      exact leaky_nonpos hs (by have := h2 (by simpa using c) v hv; linarith))
    linarith

theorem magnitude_ten : magnitude 10 = 10 := by
  unfold magnitude
  rw [Real.logb_self_eq_one (by norm_num)]
  simp

/-- C51 is false for the Lyapunov loss in the other direction: the leaky ReLU rewards samples far inside their conditions. Values with a violated
derivative condition can have a smaller loss than values that satisfy every condition. -/
theorem C51_lyapunov_loss_misranks :
    ∃ m m', lyapLoss false [1, 1] [-10, -10] = .ok (some m) ∧ lyapLoss false [100, 100] [1, -10] = .ok (some m') ∧ m' < m ∧
      (∀ v ∈ ([1, 1] : List ℝ), 0 < v) ∧ (∀ v ∈ ([-10, -10] : List ℝ), v < 0) ∧ ∃ v ∈ ([1, -10] : List ℝ), 0 < v := by
  have a1 : absMax [-10, -10] = 10 := by simp [absMax]
  have a2 : absMax [1, -10] = 10 := by simp [absMax]; try norm_num
  refine ⟨(-1) + (-1/10), (-0) + (-10), ?_, ?_, by norm_num, by simp, by intro v hv; simp at hv; subst hv; norm_num, 1, by simp, by norm_num⟩
  · simp [lyapLoss, a1, magnitude_ten, meanOf, nanAdd, leaky] <;> norm_num
  · simp [lyapLoss, a2, magnitude_ten, meanOf, nanAdd, leaky] <;> norm_num

end Fossil

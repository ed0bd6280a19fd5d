/-
C35: the training loops. How many optimiser steps they make, what holds when they stop early, what is returned.
-/
import Verif.Props.C36_Labels
import Verif.Props.C07_LLO

namespace Fossil
open Spec

variable {Θ P : Type}

/-- `j` optimiser steps, the first one being number `t`. -/
def stepsFrom (step : ℕ → Θ → Θ) (t : ℕ) : ℕ → Θ → Θ
  | 0, θ => θ
  | j + 1, θ => step (t + j) (stepsFrom step t j θ)

theorem stepsFrom_zero_eq (step : ℕ → Θ → Θ) (j : ℕ) (θ : Θ) : stepsFrom step 0 j θ = afterSteps step j θ := by
  induction j with
  | zero => rfl
  | succ j ih => simp [stepsFrom, afterSteps, ih]

theorem stepsFrom_succ (step : ℕ → Θ → Θ) (t j : ℕ) (θ : Θ) :
    stepsFrom step (t + 1) j (step t θ) = stepsFrom step t (j + 1) θ := by
  induction j with
  | zero => rfl
  | succ j ih =>
    show step (t + 1 + j) (stepsFrom step (t + 1) j (step t θ)) = step (t + (j + 1)) (stepsFrom step t (j + 1) θ)
    rw [ih]; congr 1; omega

theorem trainLoop_spec {σ : Type} (check : ℕ → σ → Θ → Except Err (Bool × σ)) (step : ℕ → Θ → Θ) :
    ∀ (k t : ℕ) (s : σ) (θ : Θ) (n : ℕ) (θ' : Θ) (m : ℕ), trainLoop check step k t s θ n = .ok (θ', m) →
    ∃ j, j ≤ k ∧ m = n + j ∧ θ' = stepsFrom step t j θ ∧ ∃ ss : ℕ → σ, ss 0 = s ∧
      (∀ i, i < j → check (t + i) (ss i) (stepsFrom step t i θ) = .ok (false, ss (i + 1))) ∧
      (j < k → ∃ s', check (t + j) (ss j) θ' = .ok (true, s')) := by
  intro k
  induction k with
  | zero =>
    intro t s θ n θ' m h
    simp only [trainLoop, Except.ok.injEq, Prod.mk.injEq] at h
    obtain ⟨rfl, rfl⟩ := h
    exact ⟨0, le_rfl, rfl, rfl, fun _ => s, rfl, by intro i hi; omega, by intro h; omega⟩
  | succ k ih =>
    intro t s θ n θ' m h
    rw [trainLoop] at h
    cases hc : check t s θ with
    | error e => rw [hc] at h; cases h
    | ok r =>
      obtain ⟨b, s1⟩ := r
      cases b with
      | true =>
        rw [hc] at h
        simp only [Except.ok.injEq, Prod.mk.injEq] at h
        obtain ⟨rfl, rfl⟩ := h
        exact ⟨0, by omega, rfl, rfl, fun _ => s, rfl, by intro i hi; omega, fun _ => ⟨s1, hc⟩⟩
      | false =>
        rw [hc] at h
        obtain ⟨j, hj, rfl, rfl, ss, h0, h1, h2⟩ := ih _ _ _ _ _ _ h
        refine ⟨j + 1, by omega, by omega, stepsFrom_succ step t j θ, fun i => match i with | 0 => s | i + 1 => ss i, rfl, ?_, ?_⟩
        · intro i hi
          cases i with
          | zero => simpa [h0, stepsFrom] using hc
          | succ i =>
            have := h1 i (by omega)
            rw [stepsFrom_succ] at this
            rw [show t + (i + 1) = t + 1 + i by omega]
            exact this
        · intro hlt
          obtain ⟨s', hs'⟩ := h2 (by omega)
          exact ⟨s', by rw [show t + (j + 1) = t + 1 + j by omega]; exact hs'⟩

/-- A loop whose test includes `t ≥ 1` (or `t > 1`). -/
theorem trainLoop_unit {α : Type} (pass : Θ → Except Err α) (ok : α → Bool) (t0 : ℕ) (ht0 : t0 ≤ 1000) (step : ℕ → Θ → Θ) (θ θ' : Θ) (n : ℕ)
    (check : ℕ → Unit → Θ → Except Err (Bool × Unit))
    (hcheck : ∀ t s θ r, check t s θ = .ok (true, r) → t0 ≤ t ∧ ∃ a, pass θ = .ok a ∧ ok a = true)
    (h : trainLoop check step learnLoops 0 () θ 0 = .ok (θ', n)) :
    t0 ≤ n ∧ n ≤ 1000 ∧ θ' = afterSteps step n θ ∧ (n < 1000 → ∃ a, pass θ' = .ok a ∧ ok a = true) := by
  obtain ⟨j, hj, rfl, rfl, ss, h0, h1, h2⟩ := trainLoop_spec check step _ _ _ _ _ _ _ h
  unfold learnLoops at hj h2
  rw [stepsFrom_zero_eq]
  by_cases hlt : j < 1000
  · obtain ⟨s', hs'⟩ := h2 hlt
    obtain ⟨h3, h4⟩ := hcheck _ _ _ _ hs'
    refine ⟨by omega, by omega, by simp, fun _ => ?_⟩
    rwa [stepsFrom_zero_eq] at h4
  · exact ⟨by omega, by omega, by simp, by omega⟩

theorem twiceLoop_spec {α : Type} (pass : Θ → Except Err α) (ok : α → Bool) (step : ℕ → Θ → Θ) (θ θ' : Θ) (n : ℕ)
    (h : twiceLoop pass ok step θ = .ok (θ', n)) :
    1 ≤ n ∧ n ≤ 1000 ∧ θ' = afterSteps step n θ ∧
    (n < 1000 → ∀ m, (m = n ∨ m = n - 1) → ∃ a, pass (afterSteps step m θ) = .ok a ∧ ok a = true) := by
  obtain ⟨j, hj, rfl, rfl, ss, h0, h1, h2⟩ := trainLoop_spec _ step _ _ _ _ _ _ _ h
  unfold learnLoops at hj h2
  rw [stepsFrom_zero_eq] at *
  have key : ∀ m s b s', (do let a ← pass (stepsFrom step 0 m θ); return (ok a && s, ok a) : Except Err (Bool × Bool)) = .ok (b, s') →
      ∃ a, pass (afterSteps step m θ) = .ok a ∧ s' = ok a ∧ b = (ok a && s) := by
    intro m s b s' hm
    obtain ⟨a, ha, hb⟩ := except_bind_ok hm
    cases hb
    rw [stepsFrom_zero_eq] at ha
    exact ⟨a, ha, rfl, rfl⟩
  by_cases hlt : j < 1000
  · obtain ⟨s', hs'⟩ := h2 hlt
    rw [← stepsFrom_zero_eq] at hs'
    obtain ⟨a, ha, -, hb⟩ := key _ _ _ _ hs'
    rw [eq_comm, Bool.and_eq_true] at hb
    have hj0 : j ≠ 0 := by
      rintro rfl
      rw [h0] at hb; simp at hb
    obtain ⟨i, rfl⟩ := Nat.exists_eq_succ_of_ne_zero hj0
    obtain ⟨a', ha', hs, -⟩ := key _ _ _ _ (h1 i (by omega))
    refine ⟨by omega, by omega, by simp, fun _ m hm => ?_⟩
    rcases hm with rfl | rfl
    · simp only [Nat.zero_add]; exact ⟨a, ha, hb.1⟩
    · simp only [Nat.zero_add, Nat.succ_sub_one]
      exact ⟨a', ha', by rw [← hs]; exact hb.2⟩
  · exact ⟨by omega, by omega, by simp, by omega⟩

/-! ### Lyapunov and region of attraction -/

theorem lyapPass_eq (acc : List ℝ → List ℝ → Except Err ℚ) (v : Values Θ P) (f : Option (Θ → P → P))
    (S Sdot : Dict String (List P)) (θ : Θ) (p d : List P) (h : Labelled f S Sdot XD p d) :
    lyapPass acc v f S Sdot θ = acc (valsAt v θ p) (liesAt v θ p (derivs f θ p d)) := by
  unfold lyapPass
  simp only [h.samples, bind, Except.bind]
  rw [samplesDot_ok (d := d) (fun hf => (h.stored hf).1)]
  simp only [getAll_ok v θ (derivs_length h θ).symm]

/-- **C35 (Lyapunov).** Between 1 and 1000 optimiser steps are made and the parameters returned are those after the last step. If
fewer than 1000 were made, then with the returned parameters the Lie derivative is non-positive at every domain sample and (unless
positivity is by construction) the function is non-negative there. -/
theorem C35_lyapunov_learn (llo : Bool) (v : Values Θ P) (f : Option (Θ → P → P)) (step : ℕ → Θ → Θ)
    (S Sdot : Dict String (List P)) (θ θ' : Θ) (n : ℕ) (p d : List P) (hl : Labelled f S Sdot XD p d)
    (h : lyapLearn (lyapAcc llo) v f step S Sdot θ = .ok (θ', n)) :
    1 ≤ n ∧ n ≤ 1000 ∧ θ' = afterSteps step n θ ∧
    (n < 1000 → (∀ q ∈ p.zip (derivs f θ' p d), v.lie θ' q.1 q.2 ≤ 0) ∧ (llo = false → ∀ x ∈ p, 0 ≤ v.val θ' x)) := by
  obtain ⟨h1, h2, h3, h4⟩ := trainLoop_unit (lyapPass (lyapAcc llo) v f S Sdot) (fun a => decide (a = 100)) 1 (by norm_num) step θ θ' n _ (by
    intro t s θ r hr
    obtain ⟨a, ha, hb⟩ := except_bind_ok hr
    simp only [pure, Except.pure, Except.ok.injEq, Prod.mk.injEq, Bool.and_eq_true, decide_eq_true_eq] at hb
    exact ⟨hb.1.2, a, ha, by simpa using hb.1.1⟩) h
  refine ⟨h1, h2, h3, fun hn => ?_⟩
  obtain ⟨a, ha, hok⟩ := h4 hn
  simp only [decide_eq_true_eq] at hok
  subst hok
  rw [lyapPass_eq _ v f S Sdot θ' p d hl] at ha
  have h5 := C44_lyapunov_accuracy llo _ _ (by rw [valsAt_length, liesAt_length v θ' (derivs_length hl θ').symm]) ha
  refine ⟨fun q hq => h5.1 _ (List.mem_map_of_mem (f := fun q => v.lie θ' q.1 q.2) hq), fun hf x hx => h5.2 hf _ (List.mem_map_of_mem hx)⟩

theorem computeMaximum_spec (out : P → ℝ) (l : List P) (m : ℝ) (h : computeMaximum out l = .ok m) :
    (∀ p ∈ l, out p ≤ m) ∧ ∃ p ∈ l, out p = m := by
  cases l with
  | nil => cases h
  | cons p ps =>
    simp only [computeMaximum, Except.ok.injEq] at h
    subst h
    have key : ∀ (ps : List P) (a : ℝ), a ≤ ps.foldl (fun m q => max m (out q)) a ∧
        (∀ q ∈ ps, out q ≤ ps.foldl (fun m q => max m (out q)) a) ∧
        (ps.foldl (fun m q => max m (out q)) a = a ∨ ∃ q ∈ ps, out q = ps.foldl (fun m q => max m (out q)) a) := by
      intro ps
      induction ps with
      | nil => intro a; simp
      | cons q ps ih =>
        intro a
        obtain ⟨i1, i2, i3⟩ := ih (max a (out q))
        simp only [List.foldl_cons, List.mem_cons, forall_eq_or_imp, exists_eq_or_imp]
        refine ⟨le_trans (le_max_left _ _) i1, ⟨le_trans (le_max_right _ _) i1, i2⟩, ?_⟩
        rcases i3 with i3 | i3
        · rw [i3]
          rcases max_choice a (out q) with e | e
          · left; exact e
          · right; left; exact e.symm
        · right; right; exact i3
    obtain ⟨k1, k2, k3⟩ := key ps (out p)
    simp only [List.mem_cons, forall_eq_or_imp, exists_eq_or_imp]
    refine ⟨⟨k1, k2⟩, ?_⟩
    rcases k3 with k3 | k3
    · left; exact k3.symm
    · right; exact k3

/-- **C35 (ROA).** As for Lyapunov; in addition the level `beta` returned is the largest network output on the initial samples. -/
theorem C35_roa_learn (llo : Bool) (v : Values Θ P) (out : Θ → P → ℝ) (f : Option (Θ → P → P)) (step : ℕ → Θ → Θ)
    (S Sdot : Dict String (List P)) (θ θ' : Θ) (n : ℕ) (beta : ℝ) (p d pi : List P) (hl : Labelled f S Sdot XD p d)
    (hi : Dict.get S XI = .ok pi)
    (h : roaLearn llo v out f step S Sdot θ = .ok (θ', n, beta)) :
    1 ≤ n ∧ n ≤ 1000 ∧ θ' = afterSteps step n θ ∧
    (n < 1000 → (∀ q ∈ p.zip (derivs f θ' p d), v.lie θ' q.1 q.2 ≤ 0) ∧ (llo = false → ∀ x ∈ p, 0 ≤ v.val θ' x)) ∧
    (∀ x ∈ pi, out θ' x ≤ beta) ∧ ∃ x ∈ pi, out θ' x = beta := by
  obtain ⟨⟨θ1, n1⟩, h1, h2⟩ := except_bind_ok h
  obtain ⟨si, h3, h4⟩ := except_bind_ok h2
  obtain ⟨b, h5, h6⟩ := except_bind_ok h4
  cases h6
  rw [hi] at h3; cases h3
  obtain ⟨k1, k2, k3, k4⟩ := trainLoop_unit (lyapPass (roaAcc llo) v f S Sdot) (fun a => decide (a = 100)) 1 (by norm_num) step θ θ' n _ (by
    intro t s θ r hr
    obtain ⟨a, ha, hb⟩ := except_bind_ok hr
    simp only [pure, Except.pure, Except.ok.injEq, Prod.mk.injEq, Bool.and_eq_true, decide_eq_true_eq] at hb
    exact ⟨hb.1.2, a, ha, by simpa using hb.1.1⟩) h1
  refine ⟨k1, k2, k3, fun hn => ?_, computeMaximum_spec _ _ _ h5⟩
  obtain ⟨a, ha, hok⟩ := k4 hn
  simp only [decide_eq_true_eq] at hok
  subst hok
  rw [lyapPass_eq _ v f S Sdot θ' p d hl] at ha
  have hne : liesAt v θ' p (derivs f θ' p d) ≠ [] := by
    intro e
    rw [e] at ha
    cases llo <;> simp [roaAcc, percent] at ha
  have h5 := (C44_roa_accuracy llo _ _ (by rw [valsAt_length, liesAt_length v θ' (derivs_length hl θ').symm]) hne).1 ha
  refine ⟨fun q hq => h5.1 _ (List.mem_map_of_mem (f := fun q => v.lie θ' q.1 q.2) hq), fun hf x hx => h5.2 hf _ (List.mem_map_of_mem hx)⟩

/-! ### barrier-like certificates -/

namespace Spec

/-- All but at most one in a thousand of the sample/derivative pairs selected by `sel` satisfy `good`, there is at least one, and with
fewer than 1000 all of them satisfy it. -/
def Mostly {P : Type} (sel : P → Prop) (good : P × P → Prop) (pairs : List (P × P)) : Prop :=
  (∃ q ∈ pairs, sel q.1) ∧
  (open Classical in 1000 * (pairs.countP (fun q => decide (sel q.1 ∧ ¬ good q))) ≤ pairs.countP (fun q => decide (sel q.1))) ∧
  ((open Classical in pairs.countP (fun q => decide (sel q.1))) < 1000 → ∀ q ∈ pairs, sel q.1 → good q)

/-- What the Barrier loop has established for parameters `θ`. -/
def BarrierOnSamples (sym : Bool) (v : Values Θ P) (θ : Θ) (pi pu : List P) (pairs : List (P × P)) : Prop :=
  (∀ x ∈ pi, v.val θ x ≤ 0) ∧ (∀ x ∈ pu, 0 ≤ v.val θ x) ∧
  Mostly (fun x => if sym then |v.val θ x| ≤ 1/2 else 0 ≤ v.val θ x) (fun q => v.lie θ q.1 q.2 ≤ 0) pairs

/-- What the BarrierAlt loop has established. -/
def BarrierAltOnSamples (v : Values Θ P) (θ : Θ) (pi pu : List P) (pairs : List (P × P)) : Prop :=
  (∀ x ∈ pi, v.val θ x ≤ -(1/20)) ∧ (∀ x ∈ pu, 1/20 ≤ v.val θ x) ∧
  Mostly (fun _ => True) (fun q => v.lie θ q.1 q.2 ≤ -(1/20)) pairs

/-- What the reach-while-avoid loop has established. -/
def ReachOnSamples (v : Values Θ P) (θ : Θ) (pi pu : List P) (pairs : List (P × P)) : Prop :=
  (∀ x ∈ pi, v.val θ x ≤ 0) ∧ (∀ x ∈ pu, 0 ≤ v.val θ x) ∧
  Mostly (fun x => v.val θ x < 0) (fun q => v.lie θ q.1 q.2 ≤ -(1/100)) pairs

end Spec

theorem zip_vals_lies (v : Values Θ P) (θ : Θ) : ∀ (p d : List P), p.length = d.length →
    (valsAt v θ p).zip (liesAt v θ p d) = (p.zip d).map (fun q => (v.val θ q.1, v.lie θ q.1 q.2))
  | [], _, _ => by simp [valsAt, liesAt]
  | x :: p, [], h => by simp at h
  | x :: p, y :: d, h => by
    have := zip_vals_lies v θ p d (by simpa using h)
    simpa [valsAt, liesAt] using this

open Classical in
theorem mostly_of (v : Values Θ P) (θ : Θ) (p d : List P) (sel : ℝ → Prop) (good : ℝ → Prop) (sl : List ℝ)
    (hsl : sl = (((valsAt v θ p).zip (liesAt v θ p d)).filter (fun q => decide (sel q.1))).map Prod.snd)
    (hlen : p.length = d.length) (hne : sl ≠ []) (hv : 1000 * violations good sl ≤ sl.length)
    (hall : sl.length < 1000 → ∀ x ∈ sl, good x) :
    Mostly (fun x => sel (v.val θ x)) (fun q => good (v.lie θ q.1 q.2)) (p.zip d) := by
  rw [zip_vals_lies v θ p d hlen] at hsl
  have e : sl = ((p.zip d).filter (fun q => decide (sel (v.val θ q.1)))).map (fun q => v.lie θ q.1 q.2) := by
    rw [hsl, List.filter_map, List.map_map]; rfl
  have hcount : sl.length = (p.zip d).countP (fun q => decide (sel (v.val θ q.1))) := by
    rw [e, List.length_map, ← List.countP_eq_length_filter]
  have hviol : violations good sl = (p.zip d).countP (fun q => decide (sel (v.val θ q.1) ∧ ¬ good (v.lie θ q.1 q.2))) := by
    rw [violations, e, List.countP_map, List.countP_filter]
    apply List.countP_congr
    intro q _
    simp [and_comm]
  refine ⟨?_, ?_, ?_⟩
  · obtain ⟨x, hx⟩ := List.exists_mem_of_ne_nil _ hne
    rw [e] at hx
    obtain ⟨q, hq, -⟩ := List.mem_map.1 hx
    rw [List.mem_filter] at hq
    exact ⟨q, hq.1, by simpa using hq.2⟩
  · rw [hviol, hcount] at hv
    convert hv using 2
  · intro h q hq hs
    refine hall (by rw [hcount]; convert h) _ ?_
    rw [e]
    exact List.mem_map.2 ⟨q, List.mem_filter.2 ⟨hq, by simpa using hs⟩, rfl⟩

theorem barrierAcc_onSamples {sym : Bool} {v : Values Θ P} {θ : Θ} {pi pu pd d : List P} {a : ℚ × ℚ} (hlen : pd.length = d.length)
    (h : barrierAcc sym (valsAt v θ pi) (valsAt v θ pu) (valsAt v θ pd) (liesAt v θ pd d) = .ok a) (hok : barrierOk a = true) :
    BarrierOnSamples sym v θ pi pu (pd.zip d) := by
  obtain ⟨h1, h2, h3, h4, h5⟩ := C44_barrier_accuracy _ _ _ _ _ _ h hok
  refine ⟨fun x hx => h1 _ (List.mem_map_of_mem hx), fun x hx => h2 _ (List.mem_map_of_mem hx), ?_⟩
  refine mostly_of v θ pd d (fun b => if sym then |b| ≤ 1/2 else 0 ≤ b) (· ≤ 0) _ ?_ hlen h3 h4 h5
  unfold beltVals
  congr 1
  apply List.filter_congr
  intro q _
  cases sym <;> simp

/-- **C35 (Barrier).** Between 1 and 1000 optimiser steps; a stop before 1000 steps means that with the returned parameters and with
those before the last step the initial samples have `B ≤ 0`, the unsafe samples `B ≥ 0`, there are belt samples and at most one in a
thousand of them violates `Bdot ≤ 0`. -/
theorem C35_barrier_learn (sym : Bool) (v : Values Θ P) (f : Option (Θ → P → P)) (step : ℕ → Θ → Θ)
    (S Sdot : Dict String (List P)) (θ θ' : Θ) (n : ℕ) (pd pi pu dd di du : List P)
    (hd : Labelled f S Sdot XD pd dd) (hi : Labelled f S Sdot XI pi di) (hu : Labelled f S Sdot XU pu du)
    (h : barrierLearn (barrierAcc sym) v f step S Sdot θ = .ok (θ', n)) :
    1 ≤ n ∧ n ≤ 1000 ∧ θ' = afterSteps step n θ ∧
    (n < 1000 → ∀ m, (m = n ∨ m = n - 1) →
      BarrierOnSamples sym v (afterSteps step m θ) pi pu (pd.zip (derivs f (afterSteps step m θ) pd dd))) := by
  unfold barrierLearn at h
  split at h
  swap; · cases h
  obtain ⟨h1, h2, h3, h4⟩ := twiceLoop_spec _ _ _ _ _ _ h
  refine ⟨h1, h2, h3, fun hn m hm => ?_⟩
  obtain ⟨a, ha, hok⟩ := h4 hn m hm
  rw [C36_barrier_labels _ v f S Sdot _ pd pi pu dd di du hd hi hu] at ha
  exact barrierAcc_onSamples (derivs_length hd _).symm ha hok

/-- **C35 (BarrierAlt).** The same with margin 0.05, at all domain samples. -/
theorem C35_barrierAlt_learn (v : Values Θ P) (f : Option (Θ → P → P)) (step : ℕ → Θ → Θ)
    (S Sdot : Dict String (List P)) (θ θ' : Θ) (n : ℕ) (pd pi pu dd di du : List P)
    (hd : Labelled f S Sdot XD pd dd) (hi : Labelled f S Sdot XI pi di) (hu : Labelled f S Sdot XU pu du)
    (h : barrierLearn barrierAltAcc v f step S Sdot θ = .ok (θ', n)) :
    1 ≤ n ∧ n ≤ 1000 ∧ θ' = afterSteps step n θ ∧
    (n < 1000 → ∀ m, (m = n ∨ m = n - 1) →
      BarrierAltOnSamples v (afterSteps step m θ) pi pu (pd.zip (derivs f (afterSteps step m θ) pd dd))) := by
  unfold barrierLearn at h
  split at h
  swap; · cases h
  obtain ⟨h1, h2, h3, h4⟩ := twiceLoop_spec _ _ _ _ _ _ h
  refine ⟨h1, h2, h3, fun hn m hm => ?_⟩
  obtain ⟨a, ha, hok⟩ := h4 hn m hm
  rw [C36_barrier_labels _ v f S Sdot _ pd pi pu dd di du hd hi hu] at ha
  obtain ⟨k1, k2, k3, k4, k5⟩ := C44_barrierAlt_accuracy _ _ _ _ _ ha hok
  refine ⟨fun x hx => k1 _ (List.mem_map_of_mem hx), fun x hx => k2 _ (List.mem_map_of_mem hx), ?_⟩
  have hlen := (derivs_length hd (afterSteps step m θ)).symm
  refine mostly_of v _ pd _ (fun _ => True) (· ≤ -(1/20)) _ ?_ hlen k3 k4 k5
  rw [zip_vals_lies v _ pd _ hlen]
  simp only [liesAt, decide_true, List.filter_true, List.map_map]
  rfl

theorem rwsAcc_onSamples {v : Values Θ P} {θ : Θ} {pi pu pd d : List P} {a : ℚ × ℚ} (hlen : pd.length = d.length)
    (h : rwsAcc (valsAt v θ pi) (valsAt v θ pu) (valsAt v θ pd) (liesAt v θ pd d) = .ok a) (hok : barrierOk a = true) :
    ReachOnSamples v θ pi pu (pd.zip d) := by
  obtain ⟨h1, h2, h3, h4, h5⟩ := C44_rws_accuracy _ _ _ _ _ h hok
  refine ⟨fun x hx => h1 _ (List.mem_map_of_mem hx), fun x hx => h2 _ (List.mem_map_of_mem hx), ?_⟩
  refine mostly_of v θ pd d (fun b => b < 0) (· ≤ -(1/100)) _ ?_ hlen h3 h4 h5
  rfl

/-- **C35 (RWA, RWS).** The same for reach-while-avoid: the derivative is at most -0.01 at the domain samples with negative value. -/
theorem C35_rws_learn (v : Values Θ P) (f : Option (Θ → P → P)) (step : ℕ → Θ → Θ)
    (S Sdot : Dict String (List P)) (θ θ' : Θ) (n : ℕ) (pd pi pu dd di du : List P)
    (hd : Labelled f S Sdot XD pd dd) (hi : Labelled f S Sdot XI pi di) (hu : Labelled f S Sdot XU pu du)
    (h : barrierLearn rwsAcc v f step S Sdot θ = .ok (θ', n)) :
    1 ≤ n ∧ n ≤ 1000 ∧ θ' = afterSteps step n θ ∧
    (n < 1000 → ∀ m, (m = n ∨ m = n - 1) →
      ReachOnSamples v (afterSteps step m θ) pi pu (pd.zip (derivs f (afterSteps step m θ) pd dd))) := by
  unfold barrierLearn at h
  split at h
  swap; · cases h
  obtain ⟨h1, h2, h3, h4⟩ := twiceLoop_spec _ _ _ _ _ _ h
  refine ⟨h1, h2, h3, fun hn m hm => ?_⟩
  obtain ⟨a, ha, hok⟩ := h4 hn m hm
  rw [C36_barrier_labels _ v f S Sdot _ pd pi pu dd di du hd hi hu] at ha
  exact rwsAcc_onSamples (derivs_length hd _).symm ha hok

/-- **C35 (RSWA, RSWS).** The same; the stay condition at the goal border is only part of the loss, not of the stopping test. -/
theorem C35_rsws_learn (v : Values Θ P) (f : Option (Θ → P → P)) (step : ℕ → Θ → Θ)
    (S Sdot : Dict String (List P)) (θ θ' : Θ) (n : ℕ) (pd pi pu pb pg dd di du db dg : List P)
    (hd : Labelled f S Sdot XD pd dd) (hi : Labelled f S Sdot XI pi di) (hu : Labelled f S Sdot XU pu du)
    (hb : Labelled f S Sdot XGB pb db) (hg : Labelled f S Sdot XG pg dg)
    (h : rswsLearn v f step S Sdot θ = .ok (θ', n)) :
    1 ≤ n ∧ n ≤ 1000 ∧ θ' = afterSteps step n θ ∧
    (n < 1000 → ∀ m, (m = n ∨ m = n - 1) →
      ReachOnSamples v (afterSteps step m θ) pi pu (pd.zip (derivs f (afterSteps step m θ) pd dd))) := by
  unfold rswsLearn at h
  split at h
  swap; · cases h
  obtain ⟨h1, h2, h3, h4⟩ := twiceLoop_spec _ _ _ _ _ _ h
  refine ⟨h1, h2, h3, fun hn m hm => ?_⟩
  obtain ⟨a, ha, hok⟩ := h4 hn m hm
  obtain ⟨k1, k2⟩ := C36_rsws_labels v f S Sdot (afterSteps step m θ) pd pi pu pb pg dd di du db dg hd hi hu hb hg
  by_cases hpb : pb = []
  · obtain ⟨e, he⟩ := k2 hpb
    rw [he] at ha; cases ha
  · rw [k1 hpb] at ha
    exact rwsAcc_onSamples (derivs_length hd _).symm ha hok

/-- **C35 (StableSafe), data dictionary in the order XD, XI, XU.** Between 2 and 1000 steps; a stop before 1000 means that with the
returned parameters both parts hold on the samples, and `beta` is the largest network output on the initial samples. -/
theorem C35_stablesafe_learn_partial (llo sym : Bool) (v b : Values Θ P) (out : Θ → P → ℝ) (f : Option (Θ → P → P)) (step : ℕ → Θ → Θ)
    (θ θ' : Θ) (n : ℕ) (beta : ℝ) (pd pi pu dd di du : List P)
    (hl : f = none → dd.length = pd.length ∧ di.length = pi.length ∧ du.length = pu.length)
    (h : safeRoaLearn llo sym v b out f step [(XD, pd), (XI, pi), (XU, pu)] [(XD, dd), (XI, di), (XU, du)] θ = .ok (θ', n, beta)) :
    2 ≤ n ∧ n ≤ 1000 ∧ θ' = afterSteps step n θ ∧
    (n < 1000 → (∀ q ∈ pd.zip (derivs f θ' pd dd), v.lie θ' q.1 q.2 ≤ 0) ∧ (llo = false → ∀ x ∈ pd, 0 ≤ v.val θ' x) ∧
      BarrierOnSamples sym b θ' pi pu (pd.zip (derivs f θ' pd dd))) ∧
    (∀ x ∈ pi, out θ' x ≤ beta) ∧ ∃ x ∈ pi, out θ' x = beta := by
  unfold safeRoaLearn at h
  rw [if_pos (by rfl)] at h
  obtain ⟨⟨θ1, n1⟩, h1, h2⟩ := except_bind_ok h
  obtain ⟨si, h3, h4⟩ := except_bind_ok h2
  obtain ⟨b', h5, h6⟩ := except_bind_ok h4
  cases h6
  cases h3
  obtain ⟨k1, k2, k3, k4⟩ := trainLoop_unit
    (safeRoaPass llo sym v b f [(XD, pd), (XI, pi), (XU, pu)] [(XD, dd), (XI, di), (XU, du)])
    (fun a => decide (a.1 = 100) && decide (a.2.1 = 100) && decide (999/10 ≤ a.2.2)) 2 (by norm_num) step θ θ' n _ (by
      intro t s θ r hr
      obtain ⟨a, ha, hb⟩ := except_bind_ok hr
      simp only [pure, Except.pure, Except.ok.injEq, Prod.mk.injEq, Bool.and_eq_true, decide_eq_true_eq] at hb
      exact ⟨by omega, a, ha, by
        simp only [Bool.and_eq_true, decide_eq_true_eq]; exact ⟨⟨hb.1.1.1.2, hb.1.1.2⟩, hb.1.2⟩⟩) h1
  refine ⟨k1, k2, k3, fun hn => ?_, computeMaximum_spec _ _ _ h5⟩
  obtain ⟨a, ha, hok⟩ := k4 hn
  rw [C36_stablesafe_labels_partial llo sym v b f θ' pd pi pu dd di du hl] at ha
  obtain ⟨la, a1, a2⟩ := except_bind_ok ha
  obtain ⟨⟨iu, belt⟩, a3, a4⟩ := except_bind_ok a2
  cases a4
  simp only [Bool.and_eq_true, decide_eq_true_eq] at hok
  have hlen : pd.length = (derivs f θ' pd dd).length := by
    cases f with
    | none => exact (hl rfl).1.symm
    | some f => simp [derivs]
  rw [hok.1.1] at a1
  have hne : liesAt v θ' pd (derivs f θ' pd dd) ≠ [] := by
    intro e
    rw [e] at a1
    cases llo <;> simp [roaAcc, percent] at a1
  have h7 := (C44_roa_accuracy llo _ _ (by rw [valsAt_length, liesAt_length v θ' hlen]) hne).1 a1
  refine ⟨fun q hq => h7.1 _ (List.mem_map_of_mem (f := fun q => v.lie θ' q.1 q.2) hq), fun hf x hx => h7.2 hf _ (List.mem_map_of_mem hx),
    barrierAcc_onSamples hlen a3 ?_⟩
  simp [barrierOk, hok.1.2, hok.2]

/-- A derivative accuracy of 100 percent leaves no exception. -/
theorem rwsAcc_all {Vi Vu Vd Vdotd : List ℝ} {a : ℚ × ℚ} (h : rwsAcc Vi Vu Vd Vdotd = .ok a) (hok : 100 ≤ a.2) :
    ∀ x ∈ lieVals Vd Vdotd, x ≤ -(1/100) := by
  unfold rwsAcc at h
  obtain ⟨iu, -, h2⟩ := except_bind_ok h
  by_cases hb : lieVals Vd Vdotd = []
  · rw [hb]; simp
  · rw [if_neg hb] at h2
    cases h2
    simp only at hok
    have hl : (0 : ℚ) < (lieVals Vd Vdotd).length := by exact_mod_cast List.length_pos_iff_ne_nil.2 hb
    rw [le_div_iff₀ hl] at hok
    have h3 : (lieVals Vd Vdotd).length ≤ countNonzero (· ≤ -(1/100)) (lieVals Vd Vdotd) := by
      have : ((lieVals Vd Vdotd).length : ℚ) ≤ countNonzero (· ≤ -(1/100)) (lieVals Vd Vdotd) := by linarith
      exact_mod_cast this
    exact (countNonzero_eq_iff _ _).1 (le_antisymm (countNonzero_le _ _) h3)

/-- **C35 (ReachAvoidRemain).** With a controller for every dictionary order, otherwise for the derivative dictionary in label order. -/
theorem C35_rar_learn_partial (sym : Bool) (v b : Values Θ P) (f : Option (Θ → P → P)) (step : ℕ → Θ → Θ)
    (S Sdot : Dict String (List P)) (θ θ' : Θ) (n : ℕ) (pd pi pu pg pf pn dd di du dg df dn : List P)
    (hd : Labelled f S Sdot XD pd dd) (hi : Labelled f S Sdot XI pi di) (hu : Labelled f S Sdot XU pu du)
    (hg : Labelled f S Sdot XG pg dg) (hf : Labelled f S Sdot XF pf df) (hn : Labelled f S Sdot XNF pn dn)
    (hord : f = none → Sdot = [(XD, dd), (XI, di), (XU, du), (XG, dg), (XF, df), (XNF, dn)])
    (h : rarLearn sym v b f step S Sdot θ = .ok (θ', n)) :
    1 ≤ n ∧ n ≤ 1000 ∧ θ' = afterSteps step n θ ∧
    (n < 1000 → ∀ m, (m = n ∨ m = n - 1) →
      ReachOnSamples v (afterSteps step m θ) pi pu (pd.zip (derivs f (afterSteps step m θ) pd dd)) ∧
      (∀ q ∈ pd.zip (derivs f (afterSteps step m θ) pd dd), v.val (afterSteps step m θ) q.1 < 0 →
        v.lie (afterSteps step m θ) q.1 q.2 ≤ -(1/100)) ∧
      BarrierOnSamples sym b (afterSteps step m θ) pg pn
        ((pg ++ pf ++ pn).zip (derivs f (afterSteps step m θ) (pg ++ pf ++ pn) (dg ++ df ++ dn)))) := by
  unfold rarLearn at h
  split at h
  swap; · cases h
  obtain ⟨h1, h2, h3, h4⟩ := twiceLoop_spec _ _ _ _ _ _ h
  refine ⟨h1, h2, h3, fun hlt m hm => ?_⟩
  obtain ⟨a, ha, hok⟩ := h4 hlt m hm
  rw [C36_rar_labels_partial sym v b f S Sdot _ pd pi pu pg pf pn dd di du dg df dn hd hi hu hg hf hn hord] at ha
  obtain ⟨x, a1, a2⟩ := except_bind_ok ha
  obtain ⟨c, a3, a4⟩ := except_bind_ok a2
  cases a4
  simp only [rarOk, Bool.and_eq_true, decide_eq_true_eq] at hok
  have hiu : ∀ (m : ℝ) (Bi Bu : List ℝ) (q : ℚ), initUnsafeAcc m Bi Bu = .ok q → q ≤ 100 := by
    intro m Bi Bu q hq
    unfold initUnsafeAcc percent at hq
    split at hq
    · cases hq
    rename_i hne
    injection hq with hq
    subst hq
    have e1 := countNonzero_le (· ≤ -m) Bi
    have e2 := countNonzero_le (m ≤ ·) Bu
    rw [div_le_iff₀ (by exact_mod_cast Nat.pos_of_ne_zero hne)]
    have : ((countNonzero (· ≤ -m) Bi + countNonzero (m ≤ ·) Bu : ℕ) : ℚ) ≤ (Bu.length + Bi.length : ℕ) := by
      exact_mod_cast (by omega)
    push_cast at this ⊢
    linarith
  refine ⟨rwsAcc_onSamples (derivs_length hd _).symm a1 ?_, ?_, barrierAcc_onSamples ?_ a3 ?_⟩
  · simp only [barrierOk, Bool.and_eq_true, decide_eq_true_eq]
    exact ⟨hok.1.1.1, by linarith [hok.1.1.2]⟩
  · intro q hq hneg
    have hmem : v.lie (afterSteps step m θ) q.1 q.2 ∈ lieVals (valsAt v (afterSteps step m θ) pd)
        (liesAt v (afterSteps step m θ) pd (derivs f (afterSteps step m θ) pd dd)) := by
      rw [mem_lieVals, zip_vals_lies v _ pd _ (derivs_length hd _).symm]
      exact ⟨_, List.mem_map_of_mem (f := fun q : P × P => (v.val (afterSteps step m θ) q.1, v.lie (afterSteps step m θ) q.1 q.2)) hq, hneg⟩
    exact rwsAcc_all a1 hok.1.1.2 _ hmem
  · rw [derivs_append, derivs_append]
    simp [derivs_length hg, derivs_length hf, derivs_length hn]
  · simp only [barrierOk, Bool.and_eq_true, decide_eq_true_eq]
    refine ⟨le_antisymm ?_ hok.1.2, hok.2⟩
    unfold barrierAcc at a3
    obtain ⟨iu, b1, b2⟩ := except_bind_ok a3
    have := hiu _ _ _ _ b1
    simp only at b2
    split at b2 <;> (cases b2; exact this)

/-! ### positivity of the last layer -/

theorem makeFinalPositive_length : ∀ ls : List Layer, (makeFinalPositive ls).length = ls.length
  | [] => rfl
  | [_] => rfl
  | _ :: b :: ls => by
    have := makeFinalPositive_length (b :: ls)
    simpa [makeFinalPositive] using this

theorem makeFinalPositive_bias : ∀ ls : List Layer, (makeFinalPositive ls).getLast?.map (·.bias) = ls.getLast?.map (·.bias)
  | [] => rfl
  | [_] => rfl
  | a :: b :: ls => by
    have := makeFinalPositive_bias (b :: ls)
    have hne : makeFinalPositive (b :: ls) ≠ [] := by cases ls <;> simp [makeFinalPositive]
    rw [makeFinalPositive, List.getLast?_cons_of_ne_nil hne, List.getLast?_cons_of_ne_nil (by simp), this]
    simp

theorem zipWith_update_last (ls new : List Layer) (h : new.length = ls.length) :
    (List.zipWith Layer.update ls new).getLast?.map (·.bias.isNone) = ls.getLast?.map (·.bias.isNone) := by
  induction ls generalizing new with
  | nil => simp
  | cons l ls ih =>
    cases new with
    | nil => simp at h
    | cons n new =>
      simp only [List.length_cons, Nat.add_right_cancel_iff] at h
      cases ls with
      | nil =>
        cases new with
        | nil => cases hb : l.bias <;> simp [Layer.update, hb]
        | cons _ _ => simp at h
      | cons l' ls =>
        cases new with
        | nil => simp at h
        | cons n' new =>
          have := ih (n' :: new) h
          simp only [List.zipWith_cons_cons] at this ⊢
          rw [List.getLast?_cons_of_ne_nil (x := l.update n) (by simp), this, List.getLast?_cons_of_ne_nil (x := l) (by simp)]

namespace Spec

/-- The optimiser keeps the number of layers. -/
def KeepsShape (upd : ℕ → List Layer → List Layer) : Prop := ∀ t ls, (upd t ls).length = ls.length

/-- All weights of the output layer are at least 0. -/
def LastNonneg (net : Net) : Prop := ∀ l, net.layers.getLast? = some l → ∀ r ∈ l.weight, ∀ c ∈ r, 0 ≤ c

end Spec

theorem lyapNetStep_shape {llo ta : Bool} {upd : ℕ → List Layer → List Layer} (hu : KeepsShape upd) (t : ℕ) (net : Net) :
    (lyapNetStep llo ta upd t net).acts = net.acts ∧ (lyapNetStep llo ta upd t net).layers.length = net.layers.length ∧
    (lyapNetStep llo ta upd t net).layers.getLast?.map (·.bias.isNone) = net.layers.getLast?.map (·.bias.isNone) := by
  have h1 : ∀ b, (optimStep b (upd t) net).acts = net.acts ∧ (optimStep b (upd t) net).layers.length = net.layers.length ∧
      (optimStep b (upd t) net).layers.getLast?.map (·.bias.isNone) = net.layers.getLast?.map (·.bias.isNone) := by
    intro b
    refine ⟨rfl, ?_, ?_⟩
    · cases b with
      | true => simp [optimStep, hu t net.layers]
      | false =>
        rcases List.eq_nil_or_concat' net.layers with e | ⟨ls, l, e⟩
        · simp [optimStep, e]
        · have := hu t net.layers
          simp only [optimStep, Bool.false_eq_true, if_false, List.length_append, List.length_zipWith, this]
          rw [e]; simp
    · cases b with
      | true =>
        simp only [optimStep, if_true]
        exact zipWith_update_last _ _ (hu t net.layers)
      | false =>
        rcases List.eq_nil_or_concat' net.layers with e | ⟨ls, l, e⟩
        · simp [optimStep, e]
        · simp [optimStep, e]
  obtain ⟨a1, a2, a3⟩ := h1 (!(llo && !ta))
  unfold lyapNetStep
  cases ta with
  | false => exact ⟨a1, a2, a3⟩
  | true =>
    refine ⟨a1, ?_, ?_⟩
    · simp only [if_true, makeFinalPositive_length]; exact a2
    · simp only [if_true]
      have := makeFinalPositive_bias (optimStep (!(llo && !true)) (upd t) net).layers
      have h2 := congrArg (Option.map Option.isNone) this
      simp only [Option.map_map] at h2
      rw [← a3]
      exact h2

/-- **C35 (positive last layer).** With LLO and a non-polynomial last activation, after any positive number of training steps (whatever
the optimiser does) the output weights are non-negative; with a polynomial one the output layer is never changed. -/
theorem C35_last_layer_nonneg (upd : ℕ → List Layer → List Layer) (ta : Bool) (net : Net) (n : ℕ) (hn : 1 ≤ n)
    (h0 : ta = false → LastNonneg net) :
    LastNonneg (afterSteps (lyapNetStep true ta upd) n net) := by
  cases ta with
  | true =>
    obtain ⟨m, rfl⟩ := Nat.exists_eq_succ_of_ne_zero (by omega : n ≠ 0)
    exact makeFinalPositive_nonneg _
  | false =>
    clear hn
    induction n with
    | zero => exact h0 rfl
    | succ n ih =>
      intro l hl
      refine ih l ?_
      change (lyapNetStep true false upd n _).layers.getLast? = some l at hl
      rcases List.eq_nil_or_concat' (afterSteps (lyapNetStep true false upd) n net).layers with e | ⟨ls, l', e⟩
      · simp [lyapNetStep, optimStep, e] at hl
      · simpa [lyapNetStep, optimStep, e] using hl

/-- The constructor's output layer under LLO with a polynomial last activation satisfies the premise of the previous theorem. -/
theorem initLastLayer_ones (bias : Bool) (w : List ℚ) (b : ℚ) : ∀ r ∈ (initLastLayer true false bias w b).weight, ∀ c ∈ r, 0 ≤ c := by
  intro r hr c hc
  simp only [initLastLayer, Bool.not_false, Bool.and_self, if_true, List.mem_singleton] at hr
  subst hr
  obtain ⟨_, _, rfl⟩ := List.mem_map.1 hc
  norm_num

/-- **C35 / C07.** A network that passed the constructor's positive-definiteness test and was then trained by `Lyapunov.learn` or
`ROA.learn` (`acc`) under LLO, by any optimiser, meets all conditions under which skipping the positivity query is sound. -/
theorem C35_trained_is_positive (acc : List ℝ → List ℝ → Except Err ℚ) (v : Values Net P) (f : Option (Net → P → P))
    (upd : ℕ → List Layer → List Layer) (hu : KeepsShape upd) (S Sdot : Dict String (List P)) (net net' : Net) (n : ℕ) (ta : Bool)
    (hw : lloWarning true net = .ok false) (hlen : net.acts.length + 1 = net.layers.length)
    (hta : takeAbs true net.acts = .ok ta) (h0 : ta = false → LastNonneg net)
    (h : lyapLearn acc v f (lyapNetStep true ta upd) S Sdot net = .ok (net', n)) : PDNet net' := by
  have hpd : net.isPositiveDefinite = .ok true := by
    unfold lloWarning at hw
    rw [if_pos rfl] at hw
    obtain ⟨b, h1, h2⟩ := except_bind_ok hw
    cases b with
    | true => exact h1
    | false => cases h2
  obtain ⟨h1, -, rfl, -⟩ := trainLoop_unit (lyapPass acc v f S Sdot) (fun a => decide (a = 100)) 1 (by norm_num) _ net net' n _ (by
    intro t s θ r hr
    obtain ⟨a, ha, hb⟩ := except_bind_ok hr
    simp only [pure, Except.pure, Except.ok.injEq, Prod.mk.injEq, Bool.and_eq_true, decide_eq_true_eq] at hb
    exact ⟨hb.1.2, a, ha, by simpa using hb.1.1⟩) h
  have hsh : ∀ m, (afterSteps (lyapNetStep true ta upd) m net).acts = net.acts ∧
      (afterSteps (lyapNetStep true ta upd) m net).layers.length = net.layers.length ∧
      (afterSteps (lyapNetStep true ta upd) m net).layers.getLast?.map (·.bias.isNone) = net.layers.getLast?.map (·.bias.isNone) := by
    intro m
    induction m with
    | zero => exact ⟨rfl, rfl, rfl⟩
    | succ m ih =>
      obtain ⟨a1, a2, a3⟩ := lyapNetStep_shape (llo := true) (ta := ta) hu m (afterSteps (lyapNetStep true ta upd) m net)
      exact ⟨a1.trans ih.1, a2.trans ih.2.1, a3.trans ih.2.2⟩
  obtain ⟨s1, s2, s3⟩ := hsh n
  refine ⟨?_, by rw [s1, s2]; exact hlen, C35_last_layer_nonneg upd ta net n h1 h0⟩
  unfold Net.isPositiveDefinite at hpd ⊢
  rw [s1]
  cases ha : net.acts.getLast? with
  | none => rw [ha] at hpd; cases hpd
  | some a =>
    cases hl : net.layers.getLast? with
    | none => rw [ha, hl] at hpd; cases hpd
    | some l =>
      rw [hl] at s3
      cases hl' : (afterSteps (lyapNetStep true ta upd) n net).layers.getLast? with
      | none => rw [hl'] at s3; cases s3
      | some l' =>
        rw [hl'] at s3
        simp only [Option.map_some, Option.some.injEq] at s3
        rw [ha, hl] at hpd
        simp only [s3]
        exact hpd

/-- Trained under LLO and accepted: positive on the domain away from the origin. -/
theorem C35_trained_accepted_positive (s : Setup) (hlib : s.lib = .z3 ∨ s.lib = .dreal)
    (hw : WFDomains s.nVars s.domains) (hc : s.cert = .LYAPUNOV) (groups)
    (v : Values Net P) (f : Option (Net → P → P)) (upd : ℕ → List Layer → List Layer) (hu : KeepsShape upd)
    (S Sdot : Dict String (List P)) (net : Net) (n : ℕ) (ta : Bool)
    (hwarn : lloWarning true net = .ok false) (hlen : net.acts.length + 1 = net.layers.length)
    (hta : takeAbs true net.acts = .ok ta) (h0 : ta = false → LastNonneg net)
    (h : lyapLearn (lyapAcc true) v f (lyapNetStep true ta upd) S Sdot net = .ok (s.net, n))
    (hq : queriesCT s = .ok groups) (ha : Accepted s.nVars groups)
    (p : Pt s.nVars) (hin : p ∈ region s.nVars s.domains XD) (hp0 : p ≠ 0) :
    0 < certValue s.rounding s.quad s.net p :=
  C07_llo_positive_ct s hlib hw hc (C35_trained_is_positive _ v f upd hu S Sdot net s.net n ta hwarn hlen hta h0 h) groups hq ha p hin hp0

/-- The network of the next theorem: `V = relu x - relu (-x) = x`, dynamics `x' = -1`. -/
def exUnprojected : Setup := ⟨.z3, 1, .STABLESAFE,
  [(XD, .rectangle [-4] [4] none), (XI, .rectangle [-1/2] [1/2] none), (XU, .rectangle [2] [3] none)],
  true, 3, false, ⟨1, [⟨[[1], [-1]], none⟩, ⟨[[1, -1]], none⟩], [.relu]⟩, [.const (-1)], 1/2⟩

/-- The barrier of the next theorem: `B = x - 1`. -/
def exUnprojectedBarr : Net := ⟨1, [⟨[[1]], some [0]⟩, ⟨[[1]], some [-1]⟩], [.identity]⟩

/-- **C35 / C15, the defect in StableSafe.** `SafeROA.learn` does not call the projection. A network that passes the constructor's test
(no warning; last activation ReLU, no output bias) can be left by the optimiser with a negative output weight, all four solver
queries are then unsatisfiable (so the certificate is accepted), and the "Lyapunov function" is negative in the initial set. -/
theorem C35_stablesafe_not_projected :
    lloWarning true exUnprojected.net = .ok false ∧ takeAbs true exUnprojected.net.acts = .ok true ∧
    (∃ net0 : Net, ∃ upd, LastNonneg net0 ∧ net0.isPositiveDefinite = .ok true ∧ optimStep true upd net0 = exUnprojected.net) ∧
    (∃ q0 q1 q2 q3, queriesDouble exUnprojected exUnprojectedBarr = .ok [[(XD, q0)], [(XI, q1), (XU, q2)], [(XD, q3)]] ∧
      ∀ ρ : Env, ¬ Formula.holds ρ q0 ∧ ¬ Formula.holds ρ q1 ∧ ¬ Formula.holds ρ q2 ∧ ¬ Formula.holds ρ q3) ∧
    ∃ p ∈ region 1 exUnprojected.domains XI, p ≠ 0 ∧ certValue exUnprojected.rounding false exUnprojected.net p < 0 := by
  have h1 : roundBy 3 1 = 1 := by decide +kernel
  have h0 : roundBy 3 0 = 0 := by decide +kernel
  have h2 : roundBy 3 (-1) = -1 := by decide +kernel
  refine ⟨rfl, rfl, ⟨⟨1, [⟨[[1], [-1]], none⟩, ⟨[[1, 1]], none⟩], [.relu]⟩, fun _ => exUnprojected.net.layers, ?_, rfl, rfl⟩,
    ⟨_, _, _, _, rfl, ?_⟩, fun _ => -1/2, ?_, ?_, ?_⟩
  · intro l hl
    simp at hl; subst hl; simp
  · intro ρ
    refine ⟨?_, ?_, ?_, ?_⟩
    all_goals
      intro h
      simp [Formula.holds, Formula.conj, Term.eval, Term.sum, leZero, geZero, gtZero, factors, vars, h1, h0, h2, Fn.eval, one,
            exUnprojected, exUnprojectedBarr, eyeJac, postVal, postGrad, gradTerms, hiddenBias, diagJac] at h
      try norm_num at h
    · rcases h with ⟨h, h'⟩ | ⟨h, h'⟩
      · have := le_max_right (-ρ 0) 0
        linarith [h' (by linarith)]
      · by_cases hx : 0 < ρ 0
        · rw [if_pos hx, if_neg (by linarith)] at h'; linarith
        · by_cases hy : ρ 0 < 0
          · rw [if_neg hx, if_pos hy] at h'; linarith
          · have : ρ 0 = 0 := le_antisymm (not_lt.1 hx) (not_lt.1 hy)
            rw [this] at h; norm_num at h
    · linarith [h.1.1, h.1.2.2]
    · linarith [h.1.1, h.1.2.1]
  · simp [region, exUnprojected, docSet, reals, coords, XD, XI, XU, Dict.get?]
    norm_num
  · intro h
    have := congrFun h 0
    norm_num at this
  · simp [certValue, exUnprojected, roundedNet, Net.forward, hiddenForward, roundedHidden, roundedLast, h1, h2,
      Layer.apply, dotR, Act.forward, coordList, at?, bind, Except.bind]
    norm_num

/-! ### limits of the guarantees -/

/-- The stopping test of the barrier loops tolerates violations: 999 belt samples with decreasing `B` and one where it increases pass. -/
theorem C35_barrier_stops_with_violation :
    ∃ Bi Bu Bd Bdotd a, barrierAcc false Bi Bu Bd Bdotd = .ok a ∧ barrierOk a = true ∧ ∃ q ∈ Bd.zip Bdotd, 0 ≤ q.1 ∧ 0 < q.2 := by
  have hz : ∀ (n : ℕ) (l m : List ℝ), (List.replicate n 0 ++ l).zip (List.replicate n (-1) ++ m) =
      List.replicate n ((0 : ℝ), (-1 : ℝ)) ++ l.zip m := by
    intro n l m
    rw [List.zip_append (by simp), List.zip_replicate']
  obtain ⟨N, hN⟩ : ∃ N : ℕ, N = 999 := ⟨_, rfl⟩
  have hb : beltVals false (List.replicate N 0 ++ [0]) (List.replicate N (-1) ++ [1]) = List.replicate N (-1) ++ [1] := by
    unfold beltVals
    rw [hz, List.filter_append, List.filter_replicate]
    simp
  have hiu : initUnsafeAcc 0 [-1] [1] = .ok 100 := by rw [C44_init_unsafe_accuracy]; norm_num
  refine ⟨[-1], [1], List.replicate N 0 ++ [0], List.replicate N (-1) ++ [1], (100, 999/10), ?_, ?_, (0, 1), ?_, by norm_num⟩
  · unfold barrierAcc
    rw [hiu, hb]
    have hne : List.replicate N (-1) ++ [1] ≠ ([] : List ℝ) := by simp
    simp only [bind, Except.bind]
    rw [if_neg hne]
    have hc : countNonzero (fun x => x ≤ 0) (List.replicate N (-1) ++ [1]) = N := by
      simp [countNonzero, List.countP_append, List.countP_replicate]
    rw [hc]
    simp only [pure, Except.pure, List.length_append, List.length_replicate, hN]
    norm_num
  · simp [barrierOk]
  · rw [hz]; simp

/-- A batch on which the Lie derivative vanishes everywhere makes `Lyapunov.learn` raise AttributeError instead of training. -/
theorem C35_lyapunov_zero_derivative_raises (llo : Bool) (v : Values Θ P) (f : Option (Θ → P → P)) (step : ℕ → Θ → Θ)
    (S Sdot : Dict String (List P)) (θ : Θ) (p d : List P) (hl : Labelled f S Sdot XD p d) (hne : p ≠ [])
    (hz : ∀ q ∈ p.zip (derivs f θ p d), v.lie θ q.1 q.2 = 0) :
    lyapLearn (lyapAcc llo) v f step S Sdot θ = .error .attributeError := by
  have hlen := (derivs_length hl θ).symm
  have h1 : lyapPass (lyapAcc llo) v f S Sdot θ = .error .attributeError := by
    rw [lyapPass_eq _ v f S Sdot θ p d hl]
    unfold lyapAcc
    have h2 : liesAt v θ p (derivs f θ p d) ≠ [] := by
      rw [← List.length_pos_iff_ne_nil, liesAt_length v θ hlen]
      exact List.length_pos_iff_ne_nil.2 hne
    rw [if_neg h2, if_pos]
    intro x hx
    obtain ⟨q, hq, rfl⟩ := List.mem_map.1 hx
    exact hz q hq
  unfold lyapLearn learnLoops
  rw [trainLoop]
  simp only [h1, bind, Except.bind]

/-- Training without samples raises. -/
theorem C35_lyapunov_no_samples_raises (llo : Bool) (v : Values Θ P) (f : Option (Θ → P → P)) (step : ℕ → Θ → Θ)
    (S Sdot : Dict String (List P)) (θ : Θ) (d : List P) (hl : Labelled f S Sdot XD [] d) :
    lyapLearn (lyapAcc llo) v f step S Sdot θ = .error .runtimeError := by
  have h1 : lyapPass (lyapAcc llo) v f S Sdot θ = .error .runtimeError := by
    rw [lyapPass_eq _ v f S Sdot θ [] d hl]
    simp [lyapAcc, liesAt]
  unfold lyapLearn learnLoops
  rw [trainLoop]
  simp only [h1, bind, Except.bind]

/-- The conditions established on the samples are not strict: a function that is zero at a sample and has zero derivative at another
counts as 100 percent accurate, although the verifier demands strict inequalities. -/
theorem C44_accuracy_not_strict : roaAcc false [0, 1] [-1, 0] = .ok 100 := by
  rw [C44_roa_accuracy false _ _ (by simp) (by simp)]
  norm_num

/-! ### non-vacuity -/

/-- A concrete run: one parameter `θ`, `V = θ x²`, field `-x`; the optimiser sets `θ := 1`. It stops after one step. -/
theorem exLyapRun : lyapLearn (lyapAcc false) (⟨fun θ x => θ * x ^ 2, fun θ x d => 2 * θ * x * d⟩ : Values ℝ ℝ) none (fun _ _ => 1)
    [(XD, [1])] [(XD, [-1])] (-1) = .ok (1, 1) := by
  have e : ∀ θ : ℝ, lyapPass (lyapAcc false) (⟨fun θ x => θ * x ^ 2, fun θ x d => 2 * θ * x * d⟩ : Values ℝ ℝ) none [(XD, [1])] [(XD, [-1])] θ
      = lyapAcc false [θ * 1 ^ 2] [2 * θ * 1 * (-1)] := fun _ => rfl
  have h1 : lyapAcc false [(1:ℝ)] [-2] = .ok 100 := by
    have hne : ¬ ∀ v ∈ [(-2:ℝ)], v = 0 := by simp
    unfold lyapAcc
    rw [if_neg (by simp), if_neg hne, C44_roa_accuracy false _ _ (by simp) (by simp)]
    norm_num
  have h0 : ∃ a, lyapAcc false [(-1:ℝ)] [2] = .ok a := by
    have hne : ¬ ∀ v ∈ [(2:ℝ)], v = 0 := by simp
    unfold lyapAcc
    rw [if_neg (by simp), if_neg hne]
    exact ⟨_, rfl⟩
  obtain ⟨a, h0⟩ := h0
  unfold lyapLearn learnLoops
  rw [trainLoop]
  simp only [e, bind, Except.bind]
  norm_num [h0, pure, Except.pure]
  rw [trainLoop]
  norm_num [h1, pure, Except.pure]

example : Labelled (Θ := ℝ) none [(XD, [(1:ℝ)])] [(XD, [-1])] XD [1] [-1] := ⟨rfl, fun _ => ⟨rfl, rfl⟩⟩

/-- A barrier run that stops after one step (two successful passes): `B = x`, data XI = -1, XU = 1, XD = 0, field `-1`. -/
theorem exBarrierRun : barrierLearn (barrierAcc true) (⟨fun _ x => x, fun _ _ d => d⟩ : Values Unit ℝ) none (fun _ _ => ())
    [(XU, [1]), (XI, [-1]), (XD, [0])] [(XU, [-1]), (XI, [-1]), (XD, [-1])] () = .ok ((), 1) := by
  have e : ∀ θ : Unit, barrierPass (barrierAcc true) (⟨fun _ x => x, fun _ _ d => d⟩ : Values Unit ℝ) none
      [(XU, [1]), (XI, [-1]), (XD, [0])] [(XU, [-1]), (XI, [-1]), (XD, [-1])] θ = barrierAcc true [-1] [1] [0] [-1] := fun _ => rfl
  have h1 : barrierAcc true [(-1:ℝ)] [1] [0] [-1] = .ok (100, 100) := by
    have h3 : initUnsafeAcc 0 [(-1:ℝ)] [1] = .ok 100 := by rw [C44_init_unsafe_accuracy]; norm_num
    have h4 : beltVals true [(0:ℝ)] [-1] = [-1] := by simp [beltVals]
    simp [barrierAcc, h3, h4, bind, Except.bind, pure, Except.pure, countNonzero]
  have h2 : barrierOk (100, 100) = true := by norm_num [barrierOk]
  unfold barrierLearn
  rw [if_pos (by simp)]
  unfold twiceLoop learnLoops
  rw [trainLoop]
  simp only [e, h1, h2, bind, Except.bind, pure, Except.pure, Bool.and_false]
  rw [trainLoop]
  simp only [e, h1, h2, bind, Except.bind, pure, Except.pure, Bool.and_self]

/-- Networks to which `C35_trained_is_positive` applies: a ReLU one (projected) and a quadratic one (output layer of ones). -/
example : lloWarning true ⟨1, [⟨[[1], [-1]], none⟩, ⟨[[1, -3]], none⟩], [.relu]⟩ = .ok false ∧ takeAbs true [.relu] = .ok true := ⟨rfl, rfl⟩
example : lloWarning true exLyap.net = .ok false ∧ takeAbs true exLyap.net.acts = .ok false ∧ LastNonneg exLyap.net :=
  ⟨rfl, rfl, by intro l hl; simp [exLyap] at hl; subst hl; simp⟩

end Fossil

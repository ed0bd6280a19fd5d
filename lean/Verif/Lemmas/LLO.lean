/-
Lemmas: networks passing the positive-definiteness test with non-negative last layer are non-negative, and the
symbolic Lie derivative vanishes wherever such a network does.
-/
import Verif.Learner
import Verif.Lemmas.Pipeline
import Mathlib.Analysis.Calculus.LocalExtr.Basic

namespace Fossil
open Spec

theorem roundHalfEven_nonneg {x : ℚ} (h : 0 ≤ x) : 0 ≤ roundHalfEven x := by
  have hf : 0 ≤ ⌊x⌋ := Int.floor_nonneg.2 h
  unfold roundHalfEven
  simp only
  split
  · exact hf
  · split
    · omega
    · split <;> omega

theorem roundBy_nonneg {rnd : ℤ} {x : ℚ} (h : 0 ≤ x) : 0 ≤ roundBy rnd x := by
  unfold roundBy
  split
  · exact h
  · unfold npRound
    have : (0:ℚ) ≤ roundHalfEven (x * 10 ^ rnd.toNat) := by
      exact_mod_cast roundHalfEven_nonneg (by positivity)
    positivity

theorem Act.scal_nonneg {a : Act} (h : a.isPD = true) (len i : ℕ) (t : ℝ) : 0 ≤ a.scal len i t := by
  cases a <;> simp [Act.isPD] at h <;> simp only [Act.scal]
  · exact le_max_right _ _
  · positivity
  · positivity
  · positivity
  · exact Real.log_nonneg (by linarith [Real.exp_pos t])
  · positivity
  · linarith [Real.one_le_cosh t]
  · exact Even.pow_nonneg (by simp) _

/-- Where a non-negative activation unit is zero its symbolic derivative is zero (also at the ReLU kink). -/
theorem Act.deriv_zero {lib : Lib} {a : Act} (h : a.isPD = true) {x d : List Term}
    (hd : a.derivativeSym lib x = .ok d) (ρ : Env) (i : ℕ) (hi : i < x.length) (hi' : i < d.length)
    (h0 : a.scal x.length i (x[i].eval ρ) = 0) : d[i].eval ρ = 0 := by
  by_cases hr : a = .relu
  · subst hr
    simp only [Act.derivativeSym, bind, Except.bind] at hd
    split at hd
    · cases hd
    split at hd
    · cases hd
    cases hd
    simp only [Act.scal] at h0
    have : x[i].eval ρ ≤ 0 := by rw [← h0]; exact le_max_left _ _
    simp [Term.eval, Fn.eval, this]
  · obtain ⟨D, rfl, hD⟩ := Act.derivativeSym_spec hd
    have h1 := hD i x[i] ρ (fun e => absurd e hr)
    have hmin : IsLocalMin (a.scal x.length i) (x[i].eval ρ) :=
      Filter.Eventually.of_forall fun t => by rw [h0]; exact a.scal_nonneg h _ _ _
    simpa using hmin.hasDerivAt_eq_zero h1

/-- The last hidden layer of the symbolic pass. -/
theorem untilLastCT_last {lib : Lib} {rnd : ℤ} {n : ℕ} {ls : List Layer} :
    ∀ {as : List Act} {z : List Term} {J} {z' : List Term} {J'}, ls ≠ [] → as.length = ls.length →
    untilLastCT lib rnd n ls as z J = .ok (z', J') →
    ∃ a zhat d J0, as.getLast? = some a ∧ a.forwardSym lib zhat = .ok z' ∧
      a.derivativeSym lib zhat = .ok d ∧ J' = diagJac d J0 := by
  induction ls with
  | nil => intro as z J z' J' h; exact absurd rfl h
  | cons l ls ih =>
    intro as z J z' J' _ hl h
    cases as with
    | nil => simp at hl
    | cons a as =>
      simp only [untilLastCT, bind, Except.bind] at h
      split at h
      · cases h
      split at h
      · cases h
      split at h
      · cases h
      rename_i y hy
      split at h
      · cases h
      split at h
      · cases h
      rename_i d hd
      cases ls with
      | nil =>
        simp only [List.length_cons, List.length_nil, Nat.zero_add, Nat.add_eq_right,
          List.length_eq_zero_iff] at hl
        subst hl
        simp only [untilLastCT] at h
        cases h
        exact ⟨a, _, d, _, rfl, hy, hd, rfl⟩
      | cons l' ls =>
        simp only [List.length_cons, Nat.add_right_cancel_iff] at hl
        obtain ⟨a', zh, d', J0, h1, h2⟩ := ih (by simp) (by simpa using hl) h
        have hne : as ≠ [] := by rintro rfl; simp at hl
        exact ⟨a', zh, d', J0, by rw [List.getLast?_cons_of_ne_nil hne]; exact h1, h2⟩

theorem untilLastDT_last {lib : Lib} {rnd : ℤ} {ls : List Layer} :
    ∀ {as : List Act} {z z' : List Term}, ls ≠ [] → as.length = ls.length →
    untilLastDT lib rnd ls as z = .ok z' →
    ∃ a zhat, as.getLast? = some a ∧ a.forwardSym lib zhat = .ok z' := by
  induction ls with
  | nil => intro as z z' h; exact absurd rfl h
  | cons l ls ih =>
    intro as z z' _ hl h
    cases as with
    | nil => simp at hl
    | cons a as =>
      simp only [untilLastDT, bind, Except.bind] at h
      split at h
      · cases h
      split at h
      · cases h
      split at h
      · cases h
      split at h
      · cases h
      rename_i y hy
      cases ls with
      | nil =>
        simp only [List.length_cons, List.length_nil, Nat.zero_add, Nat.add_eq_right,
          List.length_eq_zero_iff] at hl
        subst hl
        simp only [untilLastDT] at h
        cases h
        exact ⟨a, _, rfl, hy⟩
      | cons l' ls =>
        simp only [List.length_cons, Nat.add_right_cancel_iff] at hl
        obtain ⟨a', zh, h1, h2⟩ := ih (by simp) (by simpa using hl) h
        have hne : as ≠ [] := by rintro rfl; simp at hl
        exact ⟨a', zh, by rw [List.getLast?_cons_of_ne_nil hne]; exact h1, h2⟩

theorem forward_nonneg_list {lib : Lib} {a : Act} (h : a.isPD = true) {x y : List Term}
    (hf : a.forwardSym lib x = .ok y) (ρ : Env) : ∀ t ∈ y, 0 ≤ t.eval ρ := by
  obtain ⟨F, rfl, hF⟩ := Act.forwardSym_spec hf
  intro t ht
  obtain ⟨i, hi, rfl⟩ := List.getElem_of_mem ht
  simp only [List.getElem_mapIdx, hF]
  exact a.scal_nonneg h _ _ _

theorem weighted_sum_nonneg (r : List ℚ) (hr : ∀ c ∈ r, 0 ≤ c) (z : List Term) (ρ : Env)
    (hz : ∀ t ∈ z, 0 ≤ t.eval ρ) :
    0 ≤ (Term.sum (List.zipWith (fun c t => Term.mul (.const c) t) r z)).eval ρ := by
  rw [Term.eval_sum]
  apply List.sum_nonneg
  intro u hu
  simp only [List.map_zipWith, List.mem_iff_getElem, List.getElem_zipWith] at hu
  obtain ⟨i, hi, rfl⟩ := hu
  simp only [Term.eval]
  refine mul_nonneg ?_ (hz _ (List.getElem_mem _))
  exact_mod_cast hr _ (List.getElem_mem _)

/-- Weighted sum zero implies each product is zero. -/
theorem weighted_zero : ∀ (r : List ℚ) (_ : ∀ c ∈ r, 0 ≤ c) (z : List Term) (ρ : Env)
    (_ : ∀ t ∈ z, 0 ≤ t.eval ρ)
    (_ : (List.zipWith (fun (c : ℚ) (t : Term) => (c : ℝ) * t.eval ρ) r z).sum = 0),
    ∀ i (h1 : i < r.length) (h2 : i < z.length), r[i] = 0 ∨ z[i].eval ρ = 0 := by
  intro r hr z ρ hz h
  induction r generalizing z with
  | nil => intro i h1; simp at h1
  | cons c r ih =>
    cases z with
    | nil => intro i _ h2; simp at h2
    | cons t z =>
      simp only [List.zipWith_cons_cons, List.sum_cons] at h
      have hc : (0:ℝ) ≤ c := by exact_mod_cast hr c (by simp)
      have a1 : 0 ≤ (c : ℝ) * t.eval ρ := mul_nonneg hc (hz t (by simp))
      have a2 : 0 ≤ (List.zipWith (fun (c : ℚ) (t : Term) => (c : ℝ) * t.eval ρ) r z).sum := by
        apply List.sum_nonneg
        intro u hu
        simp only [List.mem_iff_getElem, List.getElem_zipWith] at hu
        obtain ⟨i, hi, rfl⟩ := hu
        refine mul_nonneg ?_ (hz _ (List.mem_cons_of_mem _ (List.getElem_mem _)))
        exact_mod_cast hr _ (List.mem_cons_of_mem _ (List.getElem_mem _))
      have b1 : (c : ℝ) * t.eval ρ = 0 := by linarith
      have b2 : (List.zipWith (fun (c : ℚ) (t : Term) => (c : ℝ) * t.eval ρ) r z).sum = 0 := by linarith
      intro i h1 h2
      cases i with
      | zero =>
        rcases mul_eq_zero.1 b1 with h | h
        · left; exact_mod_cast h
        · right; exact h
      | succ i =>
        exact ih (fun c hc => hr c (List.mem_cons_of_mem _ hc)) z
          (fun t ht => hz t (List.mem_cons_of_mem _ ht)) b2 i (by simpa using h1) (by simpa using h2)

/-- Structural side conditions under which the learner may rely on the output being non-negative. -/
structure PDNet (net : Net) : Prop where
  pd : net.isPositiveDefinite = .ok true
  acts : net.acts.length + 1 = net.layers.length
  last : ∀ l, net.layers.getLast? = some l → ∀ r ∈ l.weight, ∀ c ∈ r, 0 ≤ c

theorem PDNet.split {net : Net} (h : PDNet net) {last : Layer} (hl : net.layers.getLast? = some last) :
    ∃ a, net.acts.getLast? = some a ∧ a.isPD = true ∧ last.bias = none ∧
      net.layers.dropLast ≠ [] ∧ net.acts.length = net.layers.dropLast.length := by
  have h1 := h.pd
  unfold Net.isPositiveDefinite at h1
  rw [hl] at h1
  cases ha : net.acts.getLast? with
  | none => rw [ha] at h1; cases h1
  | some a =>
    rw [ha] at h1
    simp only [Except.ok.injEq, Bool.and_eq_true, Option.isNone_iff_eq_none] at h1
    have hlen := h.acts
    refine ⟨a, rfl, h1.1, h1.2, ?_, by simp; omega⟩
    intro e
    have e1 : net.layers.dropLast.length = 0 := by rw [e]; rfl
    have : net.acts ≠ [] := by rintro e; simp [e] at ha
    have := List.length_pos_iff.2 this
    simp at e1; omega

theorem lastAffine_nobias {rnd : ℤ} {last : Layer} (hb : last.bias = none) {z : List Term} {z0 : Term}
    (h : lastAffine rnd last z = .ok [z0]) :
    ∃ r, last.weight = [r] ∧ r.length = z.length ∧
      z0 = Term.sum (List.zipWith (fun c t => Term.mul (.const c) t) (r.map (roundBy rnd)) z) := by
  unfold lastAffine at h
  split at h
  · cases h
  rename_i zw hw
  rw [hb] at h
  simp only [Except.ok.injEq] at h
  subst h
  obtain ⟨hlen, h2⟩ := matVec_ok hw
  match hwt : last.weight with
  | [] => rw [hwt] at h2; simp at h2
  | [r] =>
    rw [hwt] at h2 hlen
    simp only [List.map_cons, List.map_nil, List.cons.injEq, and_true] at h2
    exact ⟨r, rfl, by simpa using hlen, h2⟩
  | r :: r' :: rs => rw [hwt] at h2; simp at h2

/-- The certificate of a PD network is non-negative (continuous-time formula), and where it vanishes so does
the Lie-derivative formula. -/
theorem pd_ct {lib rnd quad} {net : Net} (hp : PDNet net) {n : ℕ} {f : List Term} {V Vdot : Term}
    (h : translateCT lib rnd none quad net (vars n) f = .ok (V, Vdot)) (p : Pt n) :
    0 ≤ V.eval p.env ∧ (V.eval p.env = 0 → p ≠ 0 → Vdot.eval p.env = 0) := by
  obtain ⟨last, z, J, z0, g, h0, h1, h2, h4, h5, rfl, rfl⟩ := translateCT_inv h
  obtain ⟨a, ha, hpd, hb, hne, hlen⟩ := hp.split h0
  obtain ⟨a', zhat, d, J0, e1, e2, e3, e4⟩ := untilLastCT_last hne hlen h1
  rw [ha] at e1; cases e1
  obtain ⟨r, hr, hrl, rfl⟩ := lastAffine_nobias hb h2
  have hr0 : ∀ c ∈ r.map (roundBy rnd), 0 ≤ c := by
    intro c hc
    obtain ⟨c', hc', rfl⟩ := List.mem_map.1 hc
    exact roundBy_nonneg (hp.last _ h0 r (by simp [hr]) c' hc')
  have hz := forward_nonneg_list hpd e2 p.env
  have hv := weighted_sum_nonneg _ hr0 z p.env hz
  set z0 := Term.sum (List.zipWith (fun c t => Term.mul (.const c) t) (r.map (roundBy rnd)) z) with hz0
  have hE : (factors quad (vars n)).1.eval p.env = if quad then normSq p else 1 := by
    cases quad
    · simp [factors, Term.eval]
    · simp only [factors, if_true, sumSq_eval]
  have hE0 : 0 ≤ (factors quad (vars n)).1.eval p.env := by
    rw [hE]; split
    · unfold normSq; positivity
    · norm_num
  refine ⟨by simp only [Term.eval, postVal]; exact mul_nonneg hv hE0, ?_⟩
  intro hV hp0
  have hEne : (factors quad (vars n)).1.eval p.env ≠ 0 := by
    rw [hE]; split
    · intro e
      apply hp0
      unfold normSq at e
      rw [Finset.sum_eq_zero_iff_of_nonneg (fun i _ => sq_nonneg _)] at e
      funext i
      simpa using e i (Finset.mem_univ i)
    · norm_num
  have hz00 : z0.eval p.env = 0 := by
    simp only [Term.eval, postVal] at hV
    exact (mul_eq_zero.1 hV).resolve_right hEne
  have hw : (List.zipWith (fun (c : ℚ) (t : Term) => (c : ℝ) * t.eval p.env) (r.map (roundBy rnd)) z).sum = 0 := by
    rw [← hz00, hz0, Term.eval_sum, List.map_zipWith]; rfl
  have hwz := weighted_zero _ hr0 z p.env hz hw
  -- gradient row vanishes
  obtain ⟨hjl, hg⟩ := matJac_ok h4
  rw [hr] at hg hjl
  simp only [List.map_cons, List.map_nil, List.cons.injEq, and_true] at hg
  have hgz : ∀ t ∈ g, t.eval p.env = 0 := by
    intro t ht
    rw [hg] at ht
    obtain ⟨j, hj, rfl⟩ := List.mem_map.1 ht
    rw [Term.eval_sum, List.map_zipWith]
    apply List.sum_eq_zero
    intro u hu
    obtain ⟨i, hi, rfl⟩ := List.getElem_of_mem hu
    simp only [List.getElem_zipWith, Term.eval, List.getElem_map]
    simp only [List.length_zipWith, List.length_map, lt_inf_iff] at hi
    have hiz : i < z.length := by omega
    obtain ⟨F, hzF, hF⟩ := Act.forwardSym_spec e2
    have hlz : z.length = zhat.length := by rw [hzF]; simp
    rcases hwz i (by simpa using hi.1) hiz with hw0 | hw0
    · simp only [List.getElem_map] at hw0
      simp [hw0]
    · have hid : i < d.length := by
        have := hi.2
        rw [e4] at this
        simp only [diagJac, List.length_zipWith, lt_inf_iff] at this
        exact this.1
      have hd0 : d[i].eval p.env = 0 := by
        refine Act.deriv_zero hpd e3 p.env i (by omega) hid ?_
        have := hF i (zhat[i]'(by omega)) p.env
        rw [← this]
        have hzi : z[i] = F i (zhat[i]'(by omega)) := by simp [hzF]
        rw [← hzi]; exact hw0
      have : ((J[i]'hi.2).getD j (.const 0)).eval p.env = 0 := by
        simp only [e4, diagJac, List.getElem_zipWith, List.getD_eq_getElem?_getD, List.getElem?_map]
        cases (J0[i]'(by
          have := hi.2
          rw [e4] at this
          simp only [diagJac, List.length_zipWith, lt_inf_iff] at this
          exact this.2))[j]? with
        | none => simp [Term.eval]
        | some t => simp [Term.eval, hd0]
      rw [this]; simp
  simp only [postGrad, Term.eval_sum, List.map_zipWith]
  apply List.sum_eq_zero
  intro u hu
  obtain ⟨i, hi, rfl⟩ := List.getElem_of_mem hu
  simp only [List.getElem_zipWith, Term.eval, gradTerms]
  rw [hz00, hgz _ (List.getElem_mem _)]
  simp

/-- Non-negativity for the discrete-time formulas. -/
theorem pd_dt {lib rnd} {net : Net} (hp : PDNet net) {n : ℕ} {f : List Term} {V D : Term}
    (h : translateDT lib rnd false net (vars n) f = .ok (V, D)) (ρ : Env) : 0 ≤ V.eval ρ := by
  unfold translateDT at h
  split at h
  · cases h
  rename_i last h0
  simp only [bind, Except.bind] at h
  split at h
  · cases h
  rename_i z h1
  split at h
  · cases h
  split at h
  · cases h
  rename_i zo h3
  split at h
  · cases h
  split at h
  · rename_i z0 zn0
    simp only [Bool.false_eq_true, false_and, if_false] at h
    cases h
    obtain ⟨a, ha, hpd, hb, hne, hlen⟩ := hp.split h0
    obtain ⟨a', zhat, e1, e2⟩ := untilLastDT_last hne hlen h1
    rw [ha] at e1; cases e1
    obtain ⟨r, hr, hrl, rfl⟩ := lastAffine_nobias hb h3
    have hr0 : ∀ c ∈ r.map (roundBy rnd), 0 ≤ c := by
      intro c hc
      obtain ⟨c', hc', rfl⟩ := List.mem_map.1 hc
      exact roundBy_nonneg (hp.last _ h0 r (by simp [hr]) c' hc')
    have := weighted_sum_nonneg _ hr0 z ρ (forward_nonneg_list hpd e2 ρ)
    simp only [Term.eval, factors, Bool.false_eq_true, if_false]
    simpa using this
  · cases h

end Fossil

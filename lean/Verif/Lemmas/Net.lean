/-
Lemmas about the translator: values and derivatives, by induction over the layers.
-/
import Verif.Lemmas.Act
import Verif.Spec.Net

namespace Fossil
open Spec

/-! ### values -/

theorem dotR_eval (r : List ℚ) (z : List Term) (ρ : Env) :
    (Term.sum (List.zipWith (fun c t => Term.mul (.const c) t) r z)).eval ρ
      = dotR r (z.map (Term.eval ρ)) := by
  rw [Term.eval_sum, dotR, List.map_zipWith]
  congr 1
  simp only [Term.eval]
  rw [List.zipWith_map_right]

theorem matVec_ok {w : List (List ℚ)} {z y : List Term} (h : matVec w z = .ok y) :
    (∀ r ∈ w, r.length = z.length) ∧
    y = w.map (fun r => Term.sum (List.zipWith (fun c t => .mul (.const c) t) r z)) := by
  unfold matVec at h
  split at h
  · rename_i hw
    cases h
    refine ⟨fun r hr => ?_, rfl⟩
    have := List.all_eq_true.mp hw r hr
    simpa using this
  · cases h

theorem matVec_eval {w : List (List ℚ)} {z y : List Term} (h : matVec w z = .ok y) (ρ : Env) :
    y.map (Term.eval ρ) = w.map (dotR · (z.map (Term.eval ρ))) := by
  obtain ⟨_, rfl⟩ := matVec_ok h
  rw [List.map_map]
  apply List.map_congr_left
  intro r _
  exact dotR_eval r z ρ

theorem addBias_ok {z y : List Term} {b : List ℚ} (h : addBias z b = .ok y) :
    z.length = b.length ∧ y = List.zipWith (fun t c => .add t (.const c)) z b := by
  unfold addBias at h
  split at h
  · cases h; exact ⟨by assumption, rfl⟩
  · cases h

theorem addBias_eval {z y : List Term} {b : List ℚ} (h : addBias z b = .ok y) (ρ : Env) :
    y.map (Term.eval ρ) = List.zipWith (fun (t : ℝ) (c : ℚ) => t + (c : ℝ)) (z.map (Term.eval ρ)) b := by
  obtain ⟨_, rfl⟩ := addBias_ok h
  rw [List.map_zipWith, List.zipWith_map_left]
  rfl

theorem zipWith_zero_map {α : Type _} (f : α → ℝ) (w : List α) :
    List.zipWith (fun (t : ℝ) (c : ℚ) => t + (c : ℝ)) (w.map f) (w.map (fun _ => (0:ℚ))) = w.map f := by
  induction w with
  | nil => rfl
  | cons a w ih =>
    simp only [List.map_cons, List.zipWith_cons_cons, ih]
    simp

/-- pre-activation of a hidden layer -/
theorem hidden_affine_eval {rnd : ℤ} {l : Layer} {z zw zhat : List Term}
    (h1 : matVec (l.weight.map (fun r => r.map (roundBy rnd))) z = .ok zw)
    (h2 : addBias zw (hiddenBias rnd l) = .ok zhat) (ρ : Env) :
    zhat.map (Term.eval ρ) = (roundedHidden rnd l).apply (z.map (Term.eval ρ)) := by
  rw [addBias_eval h2, matVec_eval h1]
  unfold Layer.apply roundedHidden hiddenBias
  cases hb : l.bias with
  | none =>
    simp only [Option.map_none]
    rw [List.map_map]
    exact zipWith_zero_map _ _
  | some b =>
    simp only [Option.map_some]
    rw [List.zipWith_map_left]

theorem lastAffine_eval {rnd : ℤ} {l : Layer} {z zo : List Term}
    (h : lastAffine rnd l z = .ok zo) (ρ : Env) :
    zo.map (Term.eval ρ) = (roundedLast rnd l).apply (z.map (Term.eval ρ)) := by
  unfold lastAffine at h
  split at h
  · cases h
  rename_i zw h1
  unfold Layer.apply roundedLast
  cases hb : l.bias with
  | none =>
    simp only [hb] at h ⊢
    cases h
    exact matVec_eval h1 ρ
  | some b =>
    simp only [hb] at h ⊢
    rw [addBias_eval h, matVec_eval h1, List.zipWith_map_left]

theorem act_eval {lib : Lib} {a : Act} {x y : List Term} (h : a.forwardSym lib x = .ok y) (ρ : Env) :
    y.map (Term.eval ρ) = a.forward (x.map (Term.eval ρ)) := by
  obtain ⟨F, rfl, hF⟩ := Act.forwardSym_spec h
  rw [Act.forward_eq]
  apply List.ext_getElem
  · simp
  · intro i h1 h2
    simp [hF]

theorem untilLastCT_value {lib : Lib} {rnd : ℤ} {n : ℕ} {ls : List Layer} :
    ∀ {as : List Act} {z : List Term} {J} {z' : List Term} {J'},
    untilLastCT lib rnd n ls as z J = .ok (z', J') → ∀ ρ : Env,
    hiddenForward (ls.map (roundedHidden rnd)) as (z.map (Term.eval ρ)) = .ok (z'.map (Term.eval ρ)) := by
  induction ls with
  | nil => intro as z J z' J' h ρ; cases as <;> · simp [untilLastCT] at h; simp [hiddenForward, h]
  | cons l ls ih =>
    intro as z J z' J' h ρ
    cases as with
    | nil => simp [untilLastCT] at h
    | cons a as =>
      simp only [untilLastCT, bind, Except.bind] at h
      split at h
      · cases h
      rename_i zw h1
      split at h
      · cases h
      rename_i zhat h2
      split at h
      · cases h
      rename_i y h3
      split at h
      · cases h
      rename_i J1 h4
      split at h
      · cases h
      rename_i d h5
      have := ih h ρ
      simp only [List.map_cons, hiddenForward]
      rw [← hidden_affine_eval h1 h2 ρ, ← act_eval h3 ρ]
      exact this

theorem untilLastDT_value {lib : Lib} {rnd : ℤ} {ls : List Layer} :
    ∀ {as : List Act} {z z' : List Term},
    untilLastDT lib rnd ls as z = .ok z' → ∀ ρ : Env,
    hiddenForward (ls.map (roundedHidden rnd)) as (z.map (Term.eval ρ)) = .ok (z'.map (Term.eval ρ)) := by
  induction ls with
  | nil => intro as z z' h ρ; cases as <;> · simp [untilLastDT] at h; simp [hiddenForward, h]
  | cons l ls ih =>
    intro as z z' h ρ
    cases as with
    | nil => simp [untilLastDT] at h
    | cons a as =>
      simp only [untilLastDT, bind, Except.bind] at h
      split at h
      · cases h
      split at h
      · cases h
      rename_i zw h1
      split at h
      · cases h
      rename_i zhat h2
      split at h
      · cases h
      rename_i y h3
      have := ih h ρ
      simp only [List.map_cons, hiddenForward]
      rw [← hidden_affine_eval h1 h2 ρ, ← act_eval h3 ρ]
      exact this

/-! ### derivatives -/

section deriv
variable (n : ℕ) (v : ℕ → ℝ) (e : ℝ → Env) (s : Set ℝ) (t : ℝ)

/-- directional derivative described by a Jacobian row -/
noncomputable def rowD (ρ : Env) (row : List Term) : ℝ :=
  ∑ j ∈ Finset.range n, (row.getD j (.const 0)).eval ρ * v j

/-- the row is the derivative of the term along the curve -/
def Track (z : Term) (row : List Term) : Prop :=
  HasDerivWithinAt (fun τ => z.eval (e τ)) (rowD n v (e t) row) s t

variable {n v e s t}

theorem track_comb (r : List ℚ) : ∀ {zs : List Term} {J : List (List Term)},
    List.Forall₂ (Track n v e s t) zs J →
    Track n v e s t (Term.sum (List.zipWith (fun c z => .mul (.const c) z) r zs))
      ((List.range n).map (fun j =>
        Term.sum (List.zipWith (fun c row => .mul (.const c) (row.getD j (.const 0))) r J))) := by
  intro zs J h
  have key : ∀ (r : List ℚ) {zs : List Term} {J : List (List Term)},
      List.Forall₂ (Track n v e s t) zs J →
      HasDerivWithinAt (fun τ => (List.zipWith (fun (c : ℚ) z => (c:ℝ) * Term.eval (e τ) z) r zs).sum)
        (∑ j ∈ Finset.range n,
          (List.zipWith (fun (c : ℚ) row => (c : ℝ) * ((row.getD j (.const 0)).eval (e t) )) r J).sum * v j)
        s t := by
    intro r
    induction r with
    | nil => intro zs J h; simpa using hasDerivWithinAt_const _ _ _
    | cons c r ih =>
      intro zs J h
      cases h with
      | nil => simpa using hasDerivWithinAt_const _ _ _
      | cons h1 h2 =>
        simp only [List.zipWith_cons_cons, List.sum_cons]
        have := (h1.const_mul (c : ℝ)).add (ih h2)
        refine HasDerivWithinAt.congr_deriv this ?_
        simp only [rowD, Finset.mul_sum]
        rw [← Finset.sum_add_distrib]
        apply Finset.sum_congr rfl
        intro j _
        ring
  have := key r h
  unfold Track
  have e1 : (fun τ => (Term.sum (List.zipWith (fun c z => Term.mul (.const c) z) r zs)).eval (e τ))
      = (fun τ => (List.zipWith (fun (c : ℚ) z => (c:ℝ) * Term.eval (e τ) z) r zs).sum) := by
    funext τ
    rw [Term.eval_sum, List.map_zipWith]
    rfl
  rw [e1]
  refine HasDerivWithinAt.congr_deriv this ?_
  unfold rowD
  apply Finset.sum_congr rfl
  intro j hj
  congr 1
  rw [Finset.mem_range] at hj
  rw [List.getD_eq_getElem?_getD, List.getElem?_map, List.getElem?_range hj]
  simp only [Option.map_some, Option.getD_some]
  rw [Term.eval_sum, List.map_zipWith]
  rfl

theorem matJac_ok {w : List (List ℚ)} {J J' : List (List Term)} (h : matJac n w J = .ok J') :
    (∀ r ∈ w, r.length = J.length) ∧ J' = w.map (fun r => (List.range n).map (fun j =>
      Term.sum (List.zipWith (fun c row => .mul (.const c) (row.getD j (.const 0))) r J))) := by
  unfold matJac at h
  split at h
  · rename_i hw
    cases h
    refine ⟨fun r hr => ?_, rfl⟩
    have := List.all_eq_true.mp hw r hr
    simpa using this
  · cases h

theorem track_matVec {w : List (List ℚ)} {zs ys : List Term} {J J' : List (List Term)}
    (h : List.Forall₂ (Track n v e s t) zs J) (h1 : matVec w zs = .ok ys) (h2 : matJac n w J = .ok J') :
    List.Forall₂ (Track n v e s t) ys J' := by
  obtain ⟨_, rfl⟩ := matVec_ok h1
  obtain ⟨_, rfl⟩ := matJac_ok h2
  rw [List.forall₂_map_left_iff, List.forall₂_map_right_iff, List.forall₂_same]
  intro r _
  exact track_comb r h

theorem track_addBias {zs ys : List Term} {b : List ℚ} {J : List (List Term)}
    (h : List.Forall₂ (Track n v e s t) zs J) (h1 : addBias zs b = .ok ys) :
    List.Forall₂ (Track n v e s t) ys J := by
  obtain ⟨hl, rfl⟩ := addBias_ok h1
  clear h1
  induction h generalizing b with
  | nil => cases b <;> simp at hl; simp
  | cons h1 _ ih =>
    cases b with
    | nil => simp at hl
    | cons c b =>
      simp only [List.zipWith_cons_cons]
      refine List.Forall₂.cons ?_ (ih (by simpa using hl))
      exact HasDerivWithinAt.add_const _ h1

theorem track_lastAffine {rnd : ℤ} {l : Layer} {zs ys : List Term} {J J' : List (List Term)}
    (h : List.Forall₂ (Track n v e s t) zs J) (h1 : lastAffine rnd l zs = .ok ys)
    (h2 : matJac n (l.weight.map (fun r => r.map (roundBy rnd))) J = .ok J') :
    List.Forall₂ (Track n v e s t) ys J' := by
  unfold lastAffine at h1
  split at h1
  · cases h1
  rename_i zw hw
  have hT := track_matVec h hw h2
  cases hb : l.bias with
  | none => simp only [hb] at h1; cases h1; exact hT
  | some b => simp only [hb] at h1; exact track_addBias hT h1

theorem track_act {lib : Lib} {a : Act} {zs ys ds : List Term} {J : List (List Term)}
    (h : List.Forall₂ (Track n v e s t) zs J) (h1 : a.forwardSym lib zs = .ok ys)
    (h2 : a.derivativeSym lib zs = .ok ds)
    (hk : a = .relu → ∀ u ∈ zs.map (Term.eval (e t)), u ≠ 0) :
    List.Forall₂ (Track n v e s t) ys (diagJac ds J) := by
  obtain ⟨F, rfl, hF⟩ := Act.forwardSym_spec h1
  obtain ⟨D, rfl, hD⟩ := Act.derivativeSym_spec h2
  rw [List.forall₂_iff_get] at h ⊢
  obtain ⟨hl, ht⟩ := h
  refine ⟨by simp [diagJac, hl], ?_⟩
  intro i hi1 hi2
  simp only [List.length_mapIdx] at hi1
  have hT := ht i hi1 (hl ▸ hi1)
  simp only [List.get_eq_getElem, diagJac, List.getElem_mapIdx, List.getElem_zipWith] at hT ⊢
  unfold Track at hT ⊢
  have hne : a = .relu → (zs[i]).eval (e t) ≠ 0 := fun ha =>
    hk ha _ (List.mem_map.mpr ⟨_, List.getElem_mem hi1, rfl⟩)
  have := (hD i zs[i] (e t) hne).comp_hasDerivWithinAt t hT
  have e1 : (fun τ => (F i zs[i]).eval (e τ)) = (a.scal zs.length i) ∘ (fun τ => zs[i].eval (e τ)) := by
    funext τ; exact hF i _ _
  rw [e1]
  refine HasDerivWithinAt.congr_deriv this ?_
  unfold rowD
  rw [Finset.mul_sum]
  apply Finset.sum_congr rfl
  intro j _
  have : (((J[i]'(hl ▸ hi1)).map (Term.mul (D i zs[i]))).getD j (.const 0)).eval (e t) = (D i zs[i]).eval (e t) * (((J[i]'(hl ▸ hi1))).getD j (.const 0)).eval (e t) := by
    simp only [List.getD_eq_getElem?_getD, List.getElem?_map]
    cases (J[i]'(hl ▸ hi1))[j]? <;> simp [Term.eval]
  rw [this]; ring

theorem track_untilLast {lib : Lib} {rnd : ℤ} {ls : List Layer} :
    ∀ {as : List Act} {z : List Term} {J} {z' : List Term} {J'},
    untilLastCT lib rnd n ls as z J = .ok (z', J') →
    List.Forall₂ (Track n v e s t) z J →
    noKink (ls.map (roundedHidden rnd)) as (z.map (Term.eval (e t))) →
    List.Forall₂ (Track n v e s t) z' J' := by
  induction ls with
  | nil =>
    intro as z J z' J' h hT _
    cases as <;> · simp [untilLastCT] at h; obtain ⟨rfl, rfl⟩ := h; exact hT
  | cons l ls ih =>
    intro as z J z' J' h hT hk
    cases as with
    | nil => simp [untilLastCT] at h
    | cons a as =>
      simp only [untilLastCT, bind, Except.bind] at h
      split at h
      · cases h
      rename_i zw h1
      split at h
      · cases h
      rename_i zhat h2
      split at h
      · cases h
      rename_i y h3
      split at h
      · cases h
      rename_i J1 h4
      split at h
      · cases h
      rename_i d h5
      simp only [List.map_cons, noKink] at hk
      rw [← hidden_affine_eval h1 h2 (e t), ← act_eval h3 (e t)] at hk
      refine ih h ?_ hk.2
      exact track_act (track_addBias (track_matVec hT h1 h4) h2) h3 h5 hk.1

theorem track_eye {x : List Term} (hl : x.length = n)
    (hx : ∀ i (h : i < x.length), HasDerivWithinAt (fun τ => x[i].eval (e τ)) (v i) s t) :
    List.Forall₂ (Track n v e s t) x (eyeJac n) := by
  rw [List.forall₂_iff_get]
  refine ⟨by simp [eyeJac, hl], ?_⟩
  intro i h1 h2
  simp only [List.get_eq_getElem, eyeJac, List.getElem_map, List.getElem_range]
  unfold Track
  refine HasDerivWithinAt.congr_deriv (hx i h1) ?_
  unfold rowD
  rw [Finset.sum_eq_single i]
  · have : i < n := hl ▸ h1
    simp [List.getD_eq_getElem?_getD, this, Term.eval]
  · intro j hj hne
    rw [Finset.mem_range] at hj
    simp [List.getD_eq_getElem?_getD, hj, hne.symm, Term.eval]
  · intro hn
    exact absurd (Finset.mem_range.mpr (hl ▸ h1)) hn

/-- derivative of the quadratic factor -/
theorem hasDeriv_factor {x : List Term}
    (hx : ∀ i (h : i < x.length), HasDerivWithinAt (fun τ => x[i].eval (e τ)) (v i) s t) :
    HasDerivWithinAt (fun τ => (Term.sum (x.map (.pow · 2))).eval (e τ))
      (∑ j ∈ Finset.range x.length, 2 * (x.getD j (.const 0)).eval (e t) * v j) s t := by
  have e1 : (fun τ => (Term.sum (x.map (.pow · 2))).eval (e τ))
      = fun τ => ∑ j ∈ Finset.range x.length, (x.getD j (.const 0)).eval (e τ) ^ 2 := by
    funext τ
    rw [Term.eval_sum, List.map_map]
    clear hx
    induction x using List.reverseRecOn with
    | nil => simp
    | append_singleton x a ih =>
      rw [List.map_append, List.sum_append, ih, List.length_append, List.length_singleton,
        Finset.sum_range_succ]
      congr 1
      · apply Finset.sum_congr rfl
        intro j hj
        rw [Finset.mem_range] at hj
        simp [List.getD_eq_getElem?_getD, List.getElem?_append_left hj]
      · simp [Term.eval]
  rw [e1]
  apply HasDerivWithinAt.fun_sum
  intro j hj
  rw [Finset.mem_range] at hj
  have h := (hx j hj).pow 2
  rw [List.getD_eq_getElem?_getD, List.getElem?_eq_getElem hj]
  simp only [Option.getD_some]
  refine HasDerivWithinAt.congr_deriv h ?_
  norm_num

end deriv

end Fossil

/-
Lemmas about the gradients used in training: the local derivatives of the activations, the adjoint identity between the backward pass
and the tangent map, and the two readings of the tangent map (derivative along a curve; rows of the symbolic Jacobian).
-/
import Verif.Training
import Verif.Lemmas.Net

namespace Fossil
open Spec

/-- The local derivative at position `i` among `len` inputs. -/
noncomputable def Act.scalDer (a : Act) (len i : ℕ) : ℝ → ℝ :=
  match a with
  | .identity => fun _ => 1
  | .relu => fun t => if 0 < t then 1 else 0
  | .square => fun t => 2 * t
  | .poly2 => if i < len / 2 then fun _ => 1 else fun t => 2 * t
  | .tanh => fun t => 1 - Real.tanh t ^ 2
  | .tanhSquared => fun t => 2 * Real.tanh t * (1 - Real.tanh t ^ 2)
  | .sigmoid => fun t => 1 / (1 + Real.exp (-t)) * (1 - 1 / (1 + Real.exp (-t)))
  | .softplus | .shiftedSoftplus => fun t => Real.exp t / (1 + Real.exp t)
  | .shiftedSoftplusSquare => fun t => 2 * (Real.log (1 + Real.exp t) - Real.log 2) * (Real.exp t / (1 + Real.exp t))
  | .cosh => Real.sinh
  | .polyN n => fun t => ((polyIdx n len i : ℕ) + 1) * t ^ (polyIdx n len i)
  | .evenPolyN n => fun t => if polyIdx n len i = 0 then 0 else 2 * (polyIdx n len i : ℕ) * t ^ (2 * polyIdx n len i - 1)

theorem Act.localGrad_eq (a : Act) (x : List ℝ) : a.localGrad x = x.mapIdx (a.scalDer x.length) := by
  cases a
  case poly2 =>
    have := poly2_cat (fun _ : ℝ => (1:ℝ)) (fun t : ℝ => 2 * t) (x.length / 2) x
    simp only [Act.localGrad, this]
    congr 1
    funext i t
    simp only [Act.scalDer]
    split <;> rfl
  case polyN n => simp only [Act.localGrad, polyCat_parts]; rfl
  case evenPolyN n => simp only [Act.localGrad, polyCat_parts]; rfl
  all_goals
    simp only [Act.localGrad, Act.scalDer]
    exact map_eq_mapIdx _ x

theorem Act.hasDerivAt_scal (a : Act) (len i : ℕ) (t : ℝ) (h : a = .relu → t ≠ 0) :
    HasDerivAt (a.scal len i) (a.scalDer len i t) t := by
  cases a <;> simp only [Act.scal, Act.scalDer]
  case identity => exact hasDerivAt_id' t
  case relu =>
    rcases lt_or_gt_of_ne (h rfl) with h | h
    · rw [if_neg (not_lt.mpr h.le)]
      refine (hasDerivAt_const t (0:ℝ)).congr_of_eventuallyEq ?_
      filter_upwards [Iio_mem_nhds h] with y hy
      exact max_eq_right (le_of_lt hy)
    · rw [if_pos h]
      refine (hasDerivAt_id' t).congr_of_eventuallyEq ?_
      filter_upwards [Ioi_mem_nhds h] with y hy
      exact max_eq_left (le_of_lt hy)
  case square => simpa using hasDerivAt_pow 2 t
  case poly2 =>
    split
    · exact hasDerivAt_id' t
    · simpa using hasDerivAt_pow 2 t
  case tanh => exact hasDerivAt_tanh t
  case tanhSquared =>
    refine HasDerivAt.congr_deriv ((hasDerivAt_tanh t).pow 2) ?_
    norm_num
  case sigmoid =>
    have h1 : HasDerivAt (fun t => 1 + Real.exp (-t)) (-Real.exp (-t)) t := by
      have := ((hasDerivAt_neg t).exp).const_add 1
      simpa using this
    have h2 := h1.inv (by positivity)
    simp only [one_div]
    refine HasDerivAt.congr_deriv h2 ?_
    have : (1 + Real.exp (-t)) ≠ 0 := by positivity
    field_simp
    ring
  case softplus => exact hasDerivAt_softplus t
  case shiftedSoftplus => exact (hasDerivAt_softplus t).sub_const _
  case shiftedSoftplusSquare =>
    refine HasDerivAt.congr_deriv (((hasDerivAt_softplus t).sub_const (Real.log 2)).pow 2) ?_
    norm_num
  case cosh => exact (Real.hasDerivAt_cosh t).sub_const 1
  case polyN n => simpa using hasDerivAt_pow (polyIdx n len i + 1) t
  case evenPolyN n =>
    refine HasDerivAt.congr_deriv (hasDerivAt_pow (2 * polyIdx n len i) t) ?_
    split
    · rename_i h0; simp [h0]
    · push_cast; ring

/-- The symbolic derivative evaluates to the local derivative of the backward pass, everywhere (at the ReLU kink both are 0). -/
theorem Act.derivativeSym_localGrad {lib : Lib} {a : Act} {x d : List Term} (h : a.derivativeSym lib x = .ok d) (ρ : Env) :
    d.map (Term.eval ρ) = a.localGrad (x.map (Term.eval ρ)) := by
  by_cases ha : a = .relu
  · subst ha
    simp only [Act.derivativeSym] at h
    cases lib <;> simp [Lib.need, Lib.has] at h <;> cases h <;> simp [Act.localGrad, Term.eval, Fn.eval]
  · obtain ⟨D, rfl, hD⟩ := Act.derivativeSym_spec h
    rw [Act.localGrad_eq]
    apply List.ext_getElem
    · simp
    · intro i h1 h2
      simp only [List.length_map, List.length_mapIdx] at h1
      simp only [List.getElem_map, List.getElem_mapIdx, List.length_map]
      exact (hD i x[i] ρ (fun e => absurd e ha)).unique (a.hasDerivAt_scal _ _ _ (fun e => absurd e ha))

/-! ### tangent map and adjoint identity -/

/-- Inner product of two real vectors. -/
noncomputable def dotL (g w : List ℝ) : ℝ := (List.zipWith (· * ·) g w).sum

/-- One hidden layer: the tangent vector is multiplied by the weights and by the local derivatives. -/
noncomputable def layerTangent (l : Layer) (a : Act) (y w : List ℝ) : List ℝ :=
  List.zipWith (· * ·) (a.localGrad (l.apply y)) (l.weight.map (dotR · w))

/-- Tangent map of the hidden layers. -/
noncomputable def tangent : List Layer → List Act → List ℝ → List ℝ → List ℝ
  | l :: ls, a :: as, y, w => tangent ls as (a.forward (l.apply y)) (layerTangent l a y w)
  | _, _, _, w => w

theorem length_vecMat (m : ℕ) (g : List ℝ) (W : List (List ℚ)) : (vecMat m g W).length = m := by simp [vecMat]

theorem dotL_range (m : ℕ) (f : ℕ → ℝ) (w : List ℝ) (hw : w.length = m) :
    dotL ((List.range m).map f) w = ∑ i ∈ Finset.range m, f i * w.getD i 0 := by
  subst hw
  unfold dotL
  induction w using List.reverseRecOn with
  | nil => simp
  | append_singleton w a ih =>
    rw [List.length_append, List.length_singleton, List.range_succ, List.map_append,
      List.zipWith_append (by simp), List.sum_append, ih, Finset.sum_range_succ]
    congr 1
    · apply Finset.sum_congr rfl
      intro j hj
      rw [Finset.mem_range] at hj
      simp [List.getD_eq_getElem?_getD, List.getElem?_append_left hj]
    · simp

theorem dotR_range (m : ℕ) (r : List ℚ) (w : List ℝ) (hr : r.length = m) (hw : w.length = m) :
    dotR r w = ∑ i ∈ Finset.range m, ((r.getD i 0 : ℚ) : ℝ) * w.getD i 0 := by
  have h1 : dotR r w = dotL (r.map (fun c : ℚ => (c : ℝ))) w := by
    simp [dotR, dotL, List.zipWith_map_left]
  have h2 : r.map (fun c : ℚ => (c : ℝ)) = (List.range m).map (fun i => ((r.getD i 0 : ℚ) : ℝ)) := by
    apply List.ext_getElem
    · simp [hr]
    · intro i h1 h2
      simp only [List.length_map] at h1
      simp [List.getD_eq_getElem?_getD, h1]
  rw [h1, h2, dotL_range m _ w hw]

theorem dotL_vecMat (m : ℕ) (w : List ℝ) (hw : w.length = m) (g : List ℝ) (W : List (List ℚ))
    (hW : ∀ r ∈ W, r.length = m) : dotL (vecMat m g W) w = dotL g (W.map (dotR · w)) := by
  unfold vecMat
  rw [dotL_range m _ w hw]
  induction g generalizing W with
  | nil => simp [dotL]
  | cons a g ih =>
    cases W with
    | nil => simp [dotL]
    | cons r W =>
      have := ih W (fun s hs => hW s (by simp [hs]))
      simp only [List.zipWith_cons_cons, List.sum_cons, dotL, List.map_cons] at this ⊢
      rw [← this, dotR_range m r w (hW r (by simp)) hw, Finset.mul_sum, ← Finset.sum_add_distrib]
      apply Finset.sum_congr rfl
      intro i _
      ring

theorem dotL_zipWith (g d u : List ℝ) : dotL (List.zipWith (· * ·) g d) u = dotL g (List.zipWith (· * ·) d u) := by
  unfold dotL
  induction g generalizing d u with
  | nil => simp
  | cons a g ih =>
    cases d with
    | nil => simp
    | cons b d =>
      cases u with
      | nil => simp
      | cons c u => simp [ih, mul_assoc]

theorem dotL_cast (r : List ℚ) (w : List ℝ) : dotL (r.map (fun c : ℚ => (c : ℝ))) w = dotR r w := by
  simp [dotR, dotL, List.zipWith_map_left]

/-- Row widths and bias lengths fit together, starting from `m` inputs. -/
def shapedFrom : ℕ → List Layer → Prop
  | _, [] => True
  | m, l :: ls => (∀ r ∈ l.weight, r.length = m) ∧ (∀ b, l.bias = some b → b.length = l.weight.length) ∧
      shapedFrom l.weight.length ls

theorem length_apply {l : Layer} (h : ∀ b, l.bias = some b → b.length = l.weight.length) (y : List ℝ) :
    (l.apply y).length = l.weight.length := by
  unfold Layer.apply
  cases hb : l.bias with
  | none => simp
  | some b => simp [h b hb]

theorem length_forward (a : Act) (x : List ℝ) : (a.forward x).length = x.length := by
  rw [Act.forward_eq]; simp

theorem length_localGrad (a : Act) (x : List ℝ) : (a.localGrad x).length = x.length := by
  rw [Act.localGrad_eq]; simp

/-- Adjoint identity: the gradient of the backward pass against a tangent vector is the output row against the pushed-forward vector. -/
theorem back_tangent (r : List ℚ) : ∀ (ls : List Layer) (as : List Act) (y w : List ℝ), shapedFrom y.length ls →
    w.length = y.length → ls.length ≤ as.length →
    ∃ g, backHidden r ls as y = .ok g ∧ dotL g w = dotR r (tangent ls as y w) ∧
      (g.length = if ls = [] then r.length else y.length) := by
  intro ls
  induction ls with
  | nil => intro as y w _ _ _; exact ⟨_, rfl, dotL_cast r w, by simp⟩
  | cons l ls ih =>
    intro as y w hs hw hl
    cases as with
    | nil => simp at hl
    | cons a as =>
      obtain ⟨h1, h2, h3⟩ := hs
      have hlen : (a.forward (l.apply y)).length = l.weight.length := by rw [length_forward, length_apply h2]
      obtain ⟨g, e1, e2, _⟩ := ih as (a.forward (l.apply y)) (layerTangent l a y w) (by rw [hlen]; exact h3)
        (by simp [layerTangent, length_localGrad, length_apply h2, length_forward]) (by simpa using hl)
      refine ⟨_, by simp only [backHidden, e1]; rfl, ?_, by simp [length_vecMat]⟩
      rw [dotL_vecMat y.length w hw _ _ h1, dotL_zipWith]
      exact e2

/-! ### the tangent map is the derivative -/

/-- The list-valued curve `Y` has derivative `w` at `t` within `s`. -/
def CurveD (s : Set ℝ) (t : ℝ) (Y : ℝ → List ℝ) (w : List ℝ) : Prop :=
  (∀ τ, (Y τ).length = w.length) ∧
  ∀ i < w.length, HasDerivWithinAt (fun τ => (Y τ).getD i 0) (w.getD i 0) s t

theorem curveD_dotR {s : Set ℝ} {t : ℝ} {Y : ℝ → List ℝ} {w : List ℝ} (h : CurveD s t Y w) {r : List ℚ}
    (hr : r.length = w.length) : HasDerivWithinAt (fun τ => dotR r (Y τ)) (dotR r w) s t := by
  have e : (fun τ => dotR r (Y τ)) = fun τ => ∑ i ∈ Finset.range w.length, ((r.getD i 0 : ℚ) : ℝ) * (Y τ).getD i 0 := by
    funext τ; exact dotR_range _ r _ hr (h.1 τ)
  rw [e, dotR_range _ r w hr rfl]
  apply HasDerivWithinAt.fun_sum
  intro i hi
  rw [Finset.mem_range] at hi
  exact (h.2 i hi).const_mul _

theorem curveD_apply {s : Set ℝ} {t : ℝ} {Y : ℝ → List ℝ} {w : List ℝ} (h : CurveD s t Y w) {l : Layer}
    (h1 : ∀ r ∈ l.weight, r.length = w.length) (h2 : ∀ b, l.bias = some b → b.length = l.weight.length) :
    CurveD s t (fun τ => l.apply (Y τ)) (l.weight.map (dotR · w)) := by
  refine ⟨fun τ => by rw [length_apply h2]; simp, fun i hi => ?_⟩
  simp only [List.length_map] at hi
  have hd := curveD_dotR h (h1 _ (List.getElem_mem hi))
  unfold Layer.apply
  cases hb : l.bias with
  | none => simpa [List.getD_eq_getElem?_getD, hi] using hd
  | some b =>
    have hib : i < b.length := by rw [h2 b hb]; exact hi
    have := hd.add_const ((b[i] : ℚ) : ℝ)
    have e : (fun τ => (List.zipWith (fun (r : List ℚ) (c : ℚ) => dotR r (Y τ) + (c : ℝ)) l.weight b).getD i 0)
        = fun τ => dotR l.weight[i] (Y τ) + ((b[i] : ℚ) : ℝ) := by
      funext τ; simp [List.getD_eq_getElem?_getD, hi, hib]
    simp only [e]
    refine HasDerivWithinAt.congr_deriv this ?_
    simp [List.getD_eq_getElem?_getD, hi]

theorem curveD_act {s : Set ℝ} {t : ℝ} {Y : ℝ → List ℝ} {w : List ℝ} (h : CurveD s t Y w) {a : Act}
    (hk : a = .relu → ∀ u ∈ Y t, u ≠ 0) :
    CurveD s t (fun τ => a.forward (Y τ)) (List.zipWith (· * ·) (a.localGrad (Y t)) w) := by
  refine ⟨fun τ => by simp [length_forward, length_localGrad, h.1], fun i hi => ?_⟩
  have hi' : i < w.length := by simp [length_localGrad, h.1] at hi; exact hi
  have hit : ∀ τ, i < (Y τ).length := fun τ => by rw [h.1]; exact hi'
  have hne : a = .relu → (Y t).getD i 0 ≠ 0 := fun ha => by
    have := hk ha ((Y t)[i]'(hit t)) (List.getElem_mem (hit t))
    simpa [List.getD_eq_getElem?_getD, hit] using this
  have := (a.hasDerivAt_scal w.length i _ hne).comp_hasDerivWithinAt t (h.2 i hi')
  have e1 : (fun τ => (a.forward (Y τ)).getD i 0) = (a.scal w.length i) ∘ fun τ => (Y τ).getD i 0 := by
    funext τ
    rw [Act.forward_eq, h.1]
    simp [List.getD_eq_getElem?_getD, hit]
  rw [e1]
  refine HasDerivWithinAt.congr_deriv this ?_
  rw [Act.localGrad_eq, h.1]
  simp [List.getD_eq_getElem?_getD, hit, hi']

theorem curveD_hidden {s : Set ℝ} {t : ℝ} : ∀ (ls : List Layer) (as : List Act) (Y : ℝ → List ℝ) (w : List ℝ),
    CurveD s t Y w → shapedFrom w.length ls → ls.length ≤ as.length → noKink ls as (Y t) →
    ∃ Z, (∀ τ, hiddenForward ls as (Y τ) = .ok (Z τ)) ∧ CurveD s t Z (tangent ls as (Y t) w) := by
  intro ls
  induction ls with
  | nil => intro as Y w h _ _ _; exact ⟨Y, fun τ => by simp [hiddenForward], by simpa [tangent] using h⟩
  | cons l ls ih =>
    intro as Y w h hs hl hk
    cases as with
    | nil => simp at hl
    | cons a as =>
      obtain ⟨h1, h2, h3⟩ := hs
      have hA := curveD_act (curveD_apply h h1 h2) hk.1
      obtain ⟨Z, e1, e2⟩ := ih as _ _ hA (by simpa [length_localGrad, length_apply h2] using h3) (by simpa using hl) hk.2
      exact ⟨Z, e1, e2⟩

/-! ### the symbolic Jacobian is the tangent map -/

section sym
variable {n : ℕ} {v : ℕ → ℝ} {ρ : Env}

theorem rowD_comb (r : List ℚ) (J : List (List Term)) :
    rowD n v ρ ((List.range n).map (fun j =>
      Term.sum (List.zipWith (fun c row => .mul (.const c) (row.getD j (.const 0))) r J))) = dotR r (J.map (rowD n v ρ)) := by
  have e1 : rowD n v ρ ((List.range n).map (fun j =>
      Term.sum (List.zipWith (fun c row => .mul (.const c) (row.getD j (.const 0))) r J)))
      = ∑ j ∈ Finset.range n, (List.zipWith (fun (c : ℚ) row => (c : ℝ) * ((row.getD j (.const 0)).eval ρ)) r J).sum * v j := by
    unfold rowD
    apply Finset.sum_congr rfl
    intro j hj
    congr 1
    rw [Finset.mem_range] at hj
    rw [List.getD_eq_getElem?_getD, List.getElem?_map, List.getElem?_range hj]
    simp only [Option.map_some, Option.getD_some]
    rw [Term.eval_sum, List.map_zipWith]
    rfl
  rw [e1]
  clear e1
  unfold dotR
  induction r generalizing J with
  | nil => simp
  | cons c r ih =>
    cases J with
    | nil => simp
    | cons row J =>
      simp only [List.zipWith_cons_cons, List.sum_cons, List.map_cons]
      rw [← ih J, rowD, Finset.mul_sum, ← Finset.sum_add_distrib]
      apply Finset.sum_congr rfl
      intro j _
      ring

theorem rowD_matJac {w : List (List ℚ)} {J J' : List (List Term)} (h : matJac n w J = .ok J') :
    J'.map (rowD n v ρ) = w.map (dotR · (J.map (rowD n v ρ))) := by
  obtain ⟨_, rfl⟩ := matJac_ok h
  rw [List.map_map]
  apply List.map_congr_left
  intro r _
  exact rowD_comb r J

theorem rowD_diag (d : List Term) (J : List (List Term)) :
    (diagJac d J).map (rowD n v ρ) = List.zipWith (· * ·) (d.map (Term.eval ρ)) (J.map (rowD n v ρ)) := by
  unfold diagJac
  rw [List.map_zipWith, List.zipWith_map]
  congr 1
  funext a row
  unfold rowD
  rw [Finset.mul_sum]
  apply Finset.sum_congr rfl
  intro j _
  have : ((row.map (Term.mul a)).getD j (.const 0)).eval ρ = a.eval ρ * (row.getD j (.const 0)).eval ρ := by
    simp only [List.getD_eq_getElem?_getD, List.getElem?_map]
    cases row[j]? <;> simp [Term.eval]
  rw [this]; ring

theorem rowD_eye : (eyeJac n).map (rowD n v ρ) = (List.range n).map v := by
  unfold eyeJac
  rw [List.map_map]
  apply List.map_congr_left
  intro i hi
  rw [List.mem_range] at hi
  simp only [Function.comp, rowD]
  rw [Finset.sum_eq_single i]
  · simp [List.getD_eq_getElem?_getD, hi, Term.eval]
  · intro j hj hne
    rw [Finset.mem_range] at hj
    simp [List.getD_eq_getElem?_getD, hj, hne.symm, Term.eval]
  · intro hn; exact absurd (Finset.mem_range.mpr hi) hn

theorem roundedHidden_weight (rnd : ℤ) (l : Layer) :
    (roundedHidden rnd l).weight = l.weight.map (fun r => r.map (roundBy rnd)) := rfl

theorem untilLast_tangent {lib : Lib} {rnd : ℤ} {ls : List Layer} :
    ∀ {as : List Act} {z : List Term} {J} {z' : List Term} {J'},
    untilLastCT lib rnd n ls as z J = .ok (z', J') →
    J'.map (rowD n v ρ) = tangent (ls.map (roundedHidden rnd)) as (z.map (Term.eval ρ)) (J.map (rowD n v ρ)) ∧
    shapedFrom z.length (ls.map (roundedHidden rnd)) ∧ ls.length ≤ as.length ∧
    (∀ Q : ℕ → Prop, Q z.length → (∀ l ∈ ls, Q l.weight.length) → Q z'.length) ∧
    z'.length = (match ls.getLast? with | none => z.length | some l => l.weight.length) := by
  induction ls with
  | nil =>
    intro as z J z' J' h
    cases as <;>
    · simp [untilLastCT] at h
      obtain ⟨rfl, rfl⟩ := h
      exact ⟨rfl, trivial, by simp, fun Q h _ => h, rfl⟩
  | cons l ls ih =>
    intro as z J z' J' h
    cases as with
    | nil => simp [untilLastCT] at h
    | cons a as =>
      simp only [untilLastCT, bind, Except.bind] at h
      split at h
      · cases h
      rename_i zw h1
      split at h
      · cases h
      rename_i zhat h2
      split at h
      · cases h
      rename_i y h3
      split at h
      · cases h
      rename_i J1 h4
      split at h
      · cases h
      rename_i d h5
      obtain ⟨k1, k2, k3, k4, k5⟩ := ih h
      obtain ⟨s1, rfl⟩ := matVec_ok h1
      obtain ⟨s2, s3⟩ := addBias_ok h2
      have hy : y.length = l.weight.length := by
        obtain ⟨F, rfl, _⟩ := Act.forwardSym_spec h3
        simp only [List.length_mapIdx, s3, List.length_zipWith, List.length_map] at s2 ⊢
        omega
      refine ⟨?_, ⟨?_, ?_, ?_⟩, by simpa using k3, ?_, ?_⟩
      · rw [k1]
        simp only [List.map_cons, tangent]
        rw [act_eval h3, hidden_affine_eval h1 h2]
        congr 1
        rw [rowD_diag, Act.derivativeSym_localGrad h5, rowD_matJac h4, layerTangent, hidden_affine_eval h1 h2]
        rfl
      · intro r hr
        exact s1 r hr
      · intro b hb
        simp only [roundedHidden, Option.map_eq_some_iff] at hb
        obtain ⟨b', hb', rfl⟩ := hb
        simp only [hiddenBias, hb', List.length_map] at s2
        simp [roundedHidden, s2]
      · have : (roundedHidden rnd l).weight.length = y.length := by rw [hy]; simp [roundedHidden]
        rw [this]; exact k2
      · intro Q hz hls
        exact k4 Q (hy ▸ hls l (by simp)) (fun l' hl' => hls l' (by simp [hl']))
      · rw [k5, List.getLast?_cons]
        cases hls : ls.getLast? with
        | none => simp [hy]
        | some l' => simp

end sym

end Fossil

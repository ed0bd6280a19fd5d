/-
C49: the values training looks at are those of the function that is verified.
-/
import Verif.Lemmas.Training
import Verif.Lemmas.Pipeline

namespace Fossil
open Spec

namespace Spec

/-- A network with `n` inputs whose layers fit together: rows as wide as the previous layer, biases as long as the layer, an activation for
every hidden layer, one output. Every network built by the learner's constructor is of this form. -/
structure Shaped (n : ℕ) (net : Net) : Prop where
  input : net.inputSize = n
  fit : shapedFrom n net.layers
  acts : net.layers.length ≤ net.acts.length + 1
  out : ∃ last, net.layers.getLast? = some last ∧ last.weight.length = 1

end Spec

/-- Width after the layers. -/
def outWidth : ℕ → List Layer → ℕ
  | m, [] => m
  | _, l :: ls => outWidth l.weight.length ls

theorem shapedFrom_concat (l : Layer) : ∀ (ls : List Layer) (m : ℕ), shapedFrom m (ls ++ [l]) ↔
    shapedFrom m ls ∧ (∀ r ∈ l.weight, r.length = outWidth m ls) ∧ (∀ b, l.bias = some b → b.length = l.weight.length) := by
  intro ls
  induction ls with
  | nil => intro m; simp [shapedFrom, outWidth]
  | cons a ls ih => intro m; simp only [List.cons_append, shapedFrom, outWidth, ih]; tauto

theorem length_tangent : ∀ (ls : List Layer) (as : List Act) (y w : List ℝ), shapedFrom y.length ls → w.length = y.length →
    ls.length ≤ as.length → (tangent ls as y w).length = outWidth y.length ls := by
  intro ls
  induction ls with
  | nil => intro as y w _ hw _; cases as <;> simpa [tangent, outWidth] using hw
  | cons l ls ih =>
    intro as y w hs hw hl
    cases as with
    | nil => simp at hl
    | cons a as =>
      obtain ⟨h1, h2, h3⟩ := hs
      have e : (a.forward (l.apply y)).length = l.weight.length := by rw [length_forward, length_apply h2]
      simp only [tangent, outWidth]
      have := ih as (a.forward (l.apply y)) (layerTangent l a y w) (by rw [e]; exact h3)
        (by simp [layerTangent, length_localGrad, length_apply h2, length_forward]) (by simpa using hl)
      rw [this, e]

theorem hiddenForward_ok : ∀ (ls : List Layer) (as : List Act) (y : List ℝ), shapedFrom y.length ls → ls.length ≤ as.length →
    ∃ z, hiddenForward ls as y = .ok z ∧ z.length = outWidth y.length ls := by
  intro ls
  induction ls with
  | nil => intro as y _ _; exact ⟨y, by simp [hiddenForward], rfl⟩
  | cons l ls ih =>
    intro as y hs hl
    cases as with
    | nil => simp at hl
    | cons a as =>
      obtain ⟨h1, h2, h3⟩ := hs
      have e : (a.forward (l.apply y)).length = l.weight.length := by rw [length_forward, length_apply h2]
      obtain ⟨z, hz, hzl⟩ := ih as (a.forward (l.apply y)) (by rw [e]; exact h3) (by simpa using hl)
      exact ⟨z, hz, by rw [hzl, e]; rfl⟩

/-- What one row of `get_all` computes. -/
theorem getRowCT_spec {n : ℕ} {net : Net} (hs : Shaped n net) (quad : Bool) (x d : List ℝ) (hx : x.length = n)
    (hd : d.length = n) :
    ∃ last r nn, net.layers.getLast? = some last ∧ last.weight = [r] ∧ net.forward x = .ok nn ∧
      getRowCT net quad x d = .ok
        (nn * (if quad then circleOf x else 1),
         if quad then nn * dotL (x.map (2 * ·)) d + circleOf x * dotR r (tangent net.layers.dropLast net.acts x d)
         else dotR r (tangent net.layers.dropLast net.acts x d), circleOf x) := by
  obtain ⟨last, hlast, hw⟩ := hs.out
  obtain ⟨r, hr⟩ := List.length_eq_one_iff.1 hw
  have hsplit : net.layers = net.layers.dropLast ++ [last] := (List.dropLast_append_getLast? last hlast).symm
  have hfit := hs.fit
  rw [hsplit, shapedFrom_concat] at hfit
  obtain ⟨f1, f2, f3⟩ := hfit
  have hacts : net.layers.dropLast.length ≤ net.acts.length := by
    have := hs.acts; rw [List.length_dropLast]; omega
  rw [← hx] at f1 f2
  obtain ⟨z, hz, hzl⟩ := hiddenForward_ok _ _ x f1 hacts
  obtain ⟨g, e1, e2, e3⟩ := back_tangent r _ net.acts x d f1 (by rw [hx, hd]) hacts
  have hgl : g.length = x.length := by
    rw [e3]; split
    · rename_i h0
      rw [h0] at f2
      have := f2 r (by rw [hr]; simp)
      rw [this]; rfl
    · rfl
  have hnn : ∃ nn, at? (last.apply z) 0 = .ok nn := by
    have hl : (last.apply z).length = 1 := by rw [length_apply f3, hw]
    obtain ⟨u, hu⟩ := List.length_eq_one_iff.1 hl
    exact ⟨u, by rw [hu]; rfl⟩
  obtain ⟨nn, hnn⟩ := hnn
  have hf : net.forward x = .ok nn := by
    simp only [Net.forward, hlast, hz, bind, Except.bind, hnn]
  refine ⟨last, r, nn, hlast, hr, hf, ?_⟩
  have hng : netGradnet net x = .ok (nn, g) := by
    simp only [netGradnet, hf, bind, Except.bind, hlast, hr, at?, List.getElem?_cons_zero, e1]
    rfl
  cases quad with
  | false =>
    simp only [getRowCT, hng, bind, Except.bind, computeVgradV, computeDV, hgl, hx, hd, if_true, Bool.false_eq_true,
      if_false, pure, Except.pure, mul_one]
    rw [show (List.zipWith (· * ·) g d).sum = dotL g d from rfl, e2]
  | true =>
    have key : (List.zipWith (· * ·) (List.zipWith (fun gj xj => nn * (2 * xj) + gj * circleOf x) g x) d).sum
        = nn * dotL (x.map (2 * ·)) d + circleOf x * dotL g d := by
      have hgd : g.length = d.length := by omega
      have hxd : x.length = d.length := by omega
      generalize circleOf x = c
      unfold dotL
      clear e2 e1 hng hnn hf hz e3 hgl f2 f1 hx hd hzl
      induction g generalizing x d with
      | nil =>
        have : d = [] := by simpa using hgd.symm
        subst this; simp
      | cons a g ih =>
        cases d with
        | nil => simp at hgd
        | cons b d =>
          cases x with
          | nil => simp at hxd
          | cons u x =>
            have := ih x d (by simpa using hgd) (by simpa using hxd)
            simp only [List.zipWith_cons_cons, List.sum_cons, List.map_cons] at this ⊢
            rw [this]; ring
    have hl : (List.zipWith (fun gj xj => nn * (2 * xj) + gj * circleOf x) g x).length = d.length := by
      simp [hgl, hx, hd]
    simp only [getRowCT, hng, bind, Except.bind, computeVgradV, if_true, computeDV, hl, pure, Except.pure]
    rw [key, e2]

theorem circleOf_coordList {n : ℕ} (p : Pt n) : circleOf (coordList p) = normSq p := by
  simp only [circleOf, coordList, normSq, List.map_ofFn, List.sum_ofFn]
  rfl

theorem roundBy_neg (x : ℚ) : roundBy (-1) x = x := by simp [roundBy]

theorem roundedNet_neg {net : Net} (h : net.layers ≠ []) : roundedNet (-1) net = net := by
  obtain ⟨last, hlast⟩ : ∃ l, net.layers.getLast? = some l := by
    cases hl : net.layers.getLast? with
    | none => exact absurd (List.getLast?_eq_none_iff.1 hl) h
    | some l => exact ⟨l, rfl⟩
  have hr : (roundBy (-1)) = id := funext roundBy_neg
  have e1 : roundedHidden (-1) = id := by funext l; simp [roundedHidden, hr]
  have e2 : roundedLast (-1) last = last := by simp [roundedLast, hr]
  unfold roundedNet
  rw [hlast]
  simp only [e1, e2, List.map_id, List.dropLast_append_getLast? last hlast]

theorem certValue_neg {n : ℕ} {net : Net} (h : net.layers ≠ []) (quad : Bool) (p : Pt n) {y : ℝ}
    (hy : net.forward (coordList p) = .ok y) : certValue (-1) quad net p = y * (if quad then normSq p else 1) := by
  rw [certValue, roundedNet_neg h, hy]

theorem getRowsCT_rows {net : Net} {quad : Bool} : ∀ (S Sdot : List (List ℝ)), S.length = Sdot.length →
    (∀ k (h1 : k < S.length) (h2 : k < Sdot.length), ∃ row, getRowCT net quad S[k] Sdot[k] = .ok row) →
    ∃ rows, getRowsCT net quad S Sdot = .ok rows ∧ rows.length = S.length ∧
      ∀ k (h1 : k < S.length) (h2 : k < Sdot.length) (h3 : k < rows.length), getRowCT net quad S[k] Sdot[k] = .ok rows[k] := by
  intro S
  induction S with
  | nil => intro Sdot h _; exact ⟨[], by cases Sdot <;> rfl, rfl, fun k h => by simp at h⟩
  | cons x S ih =>
    intro Sdot hl hr
    cases Sdot with
    | nil => simp at hl
    | cons d Sdot =>
      obtain ⟨row, h0⟩ := hr 0 (by simp) (by simp)
      obtain ⟨rows, h1, h2, h3⟩ := ih Sdot (by simpa using hl)
        (fun k a b => hr (k + 1) (by simpa using a) (by simpa using b))
      simp only [List.getElem_cons_zero] at h0
      refine ⟨row :: rows, by simp [getRowsCT, h0, h1, bind, Except.bind, pure, Except.pure], by simp [h2], ?_⟩
      intro k a b c
      cases k with
      | zero => exact h0
      | succ k => exact h3 k (by simpa using a) (by simpa using b) (by simpa using c)

theorem shaped_ne {n : ℕ} {net : Net} (h : Shaped n net) : net.layers ≠ [] := by
  obtain ⟨l, hl, _⟩ := h.out
  intro e; rw [e] at hl; cases hl

/-- C49. Every row that training computes from a sample and its derivative consists of the certificate's value at the sample, the rate of
change of the certificate along any curve passing through the sample with that derivative (whenever no ReLU sits exactly at its kink there),
and the squared norm; for networks of any depth, with any activations, with or without the quadratic factor. -/
theorem C49_training_derivative (n : ℕ) (net : Net) (quad : Bool) (hs : Shaped n net) (S Sdot : List (Pt n))
    (hl : S.length = Sdot.length) :
    ∃ rows, getAllCT net quad (S.map coordList) (Sdot.map coordList) = .ok rows ∧ rows.length = S.length ∧
      ∀ k (h1 : k < S.length) (h2 : k < Sdot.length) (h3 : k < rows.length),
        rows[k].1 = certValue (-1) quad net S[k] ∧ rows[k].2.2 = normSq S[k] ∧
        (noKink net.layers.dropLast net.acts (coordList S[k]) →
          ∀ (γ : ℝ → Pt n) (s : Set ℝ) (t : ℝ), γ t = S[k] → HasDerivWithinAt γ Sdot[k] s t →
            HasDerivWithinAt (fun τ => certValue (-1) quad net (γ τ)) rows[k].2.1 s t) := by
  have hne := shaped_ne hs
  have hrow : ∀ p v : Pt n, ∃ row, getRowCT net quad (coordList p) (coordList v) = .ok row ∧
      row.1 = certValue (-1) quad net p ∧ row.2.2 = normSq p ∧
      (noKink net.layers.dropLast net.acts (coordList p) →
        ∀ (γ : ℝ → Pt n) (s : Set ℝ) (t : ℝ), γ t = p → HasDerivWithinAt γ v s t →
          HasDerivWithinAt (fun τ => certValue (-1) quad net (γ τ)) row.2.1 s t) := by
    intro p v
    obtain ⟨last, r, nn, hlast, hr, hf, hrow⟩ := getRowCT_spec hs quad (coordList p) (coordList v) (by simp [coordList])
      (by simp [coordList])
    refine ⟨_, hrow, ?_, circleOf_coordList p, ?_⟩
    · rw [certValue_neg hne quad p hf, circleOf_coordList]
    intro hk γ s t hp hγ
    have hsplit : net.layers = net.layers.dropLast ++ [last] := (List.dropLast_append_getLast? last hlast).symm
    have hfit := hs.fit
    rw [hsplit, shapedFrom_concat] at hfit
    obtain ⟨f1, f2, f3⟩ := hfit
    have hacts : net.layers.dropLast.length ≤ net.acts.length := by
      have := hs.acts; rw [List.length_dropLast]; omega
    have hc : CurveD s t (fun τ => coordList (γ τ)) (coordList v) := by
      refine ⟨fun τ => by simp [coordList], fun i hi => ?_⟩
      simp only [coordList, List.length_ofFn] at hi
      have := (hasDerivWithinAt_pi.mp hγ) ⟨i, hi⟩
      simpa [coordList, List.getD_eq_getElem?_getD, hi] using this
    have hvl : (coordList v).length = n := by simp [coordList]
    obtain ⟨Z, z1, z2⟩ := curveD_hidden _ net.acts _ _ hc (by rw [hvl]; exact f1) hacts (by simpa only [hp] using hk)
    have htl := length_tangent net.layers.dropLast net.acts (coordList p) (coordList v) (by simpa [coordList] using f1)
      (by simp [coordList]) hacts
    simp only [hp] at z2
    have ho : CurveD s t (fun τ => last.apply (Z τ)) (last.weight.map (dotR · (tangent net.layers.dropLast net.acts
        (coordList p) (coordList v)))) :=
      curveD_apply z2 (fun r hr => by rw [htl]; simpa [coordList] using f2 r hr) f3
    have hnn : HasDerivWithinAt (fun τ => (last.apply (Z τ)).getD 0 0)
        (dotR r (tangent net.layers.dropLast net.acts (coordList p) (coordList v))) s t := by
      have := ho.2 0 (by simp [hr])
      simpa [hr] using this
    have hval : ∀ τ, net.forward (coordList (γ τ)) = .ok ((last.apply (Z τ)).getD 0 0) := by
      intro τ
      simp only [Net.forward, hlast, z1 τ, bind, Except.bind]
      have hl1 : (last.apply (Z τ)).length = 1 := by rw [length_apply f3, hr]; rfl
      obtain ⟨u, hu⟩ := List.length_eq_one_iff.1 hl1
      rw [hu]; rfl
    have hcv : (fun τ => certValue (-1) quad net (γ τ))
        = fun τ => (last.apply (Z τ)).getD 0 0 * (if quad then normSq (γ τ) else 1) := by
      funext τ; exact certValue_neg hne quad (γ τ) (hval τ)
    rw [hcv]
    have hnn0 : (last.apply (Z t)).getD 0 0 = nn := by
      have := hval t
      rw [hp, hf] at this
      cases this; rfl
    cases quad with
    | false => simpa using hnn
    | true =>
      have hE : HasDerivWithinAt (fun τ => normSq (γ τ)) (dotL ((coordList p).map (2 * ·)) (coordList v)) s t := by
        have h1 : HasDerivWithinAt (fun τ => ∑ i, γ τ i ^ 2) (∑ i, 2 * p i * v i) s t := by
          apply HasDerivWithinAt.fun_sum
          intro i _
          have := ((hasDerivWithinAt_pi.mp hγ) i).pow 2
          refine HasDerivWithinAt.congr_deriv this ?_
          simp [hp]
        refine HasDerivWithinAt.congr_deriv h1 ?_
        simp only [dotL, coordList, List.map_ofFn]
        rw [← List.sum_ofFn]
        congr 1
        apply List.ext_getElem <;> simp
      have := hnn.mul hE
      simp only [if_true]
      refine HasDerivWithinAt.congr_deriv this ?_
      simp only [hp, hnn0, circleOf_coordList]
      ring
  obtain ⟨rows, h1, h2, h3⟩ := getRowsCT_rows (net := net) (quad := quad) (S.map coordList) (Sdot.map coordList) (by simpa using hl)
    (fun k a b => by
      simp only [List.getElem_map]
      obtain ⟨row, h, _⟩ := hrow (S[k]'(by simpa using a)) (Sdot[k]'(by simpa using b))
      exact ⟨row, h⟩)
  refine ⟨rows, by simp [getAllCT, hl, h1], by simpa using h2, ?_⟩
  intro k a b c
  obtain ⟨row, e1, e2⟩ := hrow S[k] Sdot[k]
  have e3 := h3 k (by simpa using a) (by simpa using b) c
  simp only [List.getElem_map] at e3
  rw [e1] at e3
  cases e3
  exact e2

theorem exampleNet_shaped : Shaped 2 exampleNet :=
  ⟨rfl, by simp [exampleNet, shapedFrom], by simp [exampleNet], ⟨_, rfl, rfl⟩⟩

/-- A 2-2-1 ReLU network. -/
def exReluNet : Net := ⟨2, [⟨[[1, 0], [0, -1]], some [1, 2]⟩, ⟨[[1, 3]], none⟩], [.relu]⟩

example : Shaped 2 exReluNet ∧ noKink exReluNet.layers.dropLast exReluNet.acts (coordList (n := 2) ![3, 1]) := by
  refine ⟨⟨rfl, by simp [exReluNet, shapedFrom], by simp [exReluNet], ⟨_, rfl, rfl⟩⟩, ?_⟩
  simp [exReluNet, noKink, coordList, Layer.apply, dotR]
  norm_num

/-- C49: training and verification look at the same functions. If the translator accepts the network and the (symbolic) dynamics, then training
the rounded network on the state `p` with derivative `f p` would see exactly the value and the Lie derivative of the formulas handed to the
solver at `p`, even where a ReLU is at its kink. -/
theorem C49_training_matches_verified (lib : Lib) (rnd : ℤ) (quad : Bool) (net : Net) (n : ℕ) (f : List Term) (V Vdot : Term)
    (h : translateCT lib rnd none quad net (vars n) f = .ok (V, Vdot)) (hn : net.inputSize = n) (p : Pt n) :
    getAllCT (roundedNet rnd net) quad [coordList p] [coordList (field n f p)]
      = .ok [(V.eval p.env, Vdot.eval p.env, normSq p)] := by
  obtain ⟨y, hy, hV⟩ := C17_formula_is_network lib rnd quad net n f V Vdot h p
  obtain ⟨last, z, J, z0, g, h0, h1, h2, h4, h5, rfl, rfl⟩ := translateCT_inv h
  rw [hn] at h1 h4
  set v : ℕ → ℝ := fun j => (f.getD j (.const 0)).eval p.env with hv
  obtain ⟨k1, k2, k3, _, k5⟩ := untilLast_tangent (v := v) (ρ := p.env) h1
  rw [rowD_eye, vars_map_eval] at k1
  rw [length_vars] at k2
  have hfld : (List.range n).map v = coordList (field n f p) := by
    apply List.ext_getElem
    · simp [coordList]
    · intro i a b
      simp [coordList, field, hv]
  rw [hfld] at k1
  have hlayers : (roundedNet rnd net).layers = net.layers.dropLast.map (roundedHidden rnd) ++ [roundedLast rnd last] := by
    simp [roundedNet, h0]
  -- shape of the last layer
  obtain ⟨m1, m2⟩ := matJac_ok h4
  have hw1 : last.weight.length = 1 := by
    have := congrArg List.length m2
    simpa using this.symm
  have hz0 : z0.eval p.env = y := by
    have a1 := untilLastCT_value h1 p.env
    have a2 := lastAffine_eval h2 p.env
    rw [vars_map_eval] at a1
    simp only [Net.forward, hlayers, List.getLast?_concat, List.dropLast_concat] at hy
    rw [show (roundedNet rnd net).acts = net.acts from rfl, a1] at hy
    simp only [bind, Except.bind] at hy
    rw [← a2] at hy
    simpa [at?] using hy
  unfold lastAffine at h2
  split at h2
  · cases h2
  rename_i zw hzw
  obtain ⟨s1, rfl⟩ := matVec_ok hzw
  have hout : outWidth n (net.layers.dropLast.map (roundedHidden rnd)) = z.length := by
    rw [k5]
    have : ∀ (ls : List Layer) (m : ℕ), outWidth m (ls.map (roundedHidden rnd))
        = (match ls.getLast? with | none => m | some l => l.weight.length) := by
      intro ls
      induction ls with
      | nil => intro m; rfl
      | cons l ls ih =>
        intro m
        simp only [List.map_cons, outWidth, ih, List.getLast?_cons]
        cases ls.getLast? <;> simp [roundedHidden]
    rw [this]
    cases net.layers.dropLast.getLast? <;> simp
  have hsh : Shaped n (roundedNet rnd net) := by
    refine ⟨hn, ?_, ?_, ⟨roundedLast rnd last, by simp [hlayers], by simpa [roundedLast] using hw1⟩⟩
    · rw [hlayers, shapedFrom_concat]
      refine ⟨k2, ?_, ?_⟩
      · intro r hr
        rw [hout]
        exact s1 r hr
      · intro b hb
        simp only [roundedLast] at hb
        rw [hb] at h2
        obtain ⟨e, _⟩ := addBias_ok h2
        simpa [roundedLast] using e.symm
    · have hne : net.layers ≠ [] := by intro e; rw [e] at h0; cases h0
      have hpos := List.length_pos_of_ne_nil hne
      rw [List.length_dropLast] at k3
      rw [hlayers]
      simp [roundedNet]
      omega
  obtain ⟨last', r, nn, e1, e2, e3, e4⟩ := getRowCT_spec hsh quad (coordList p) (coordList (field n f p)) (by simp [coordList])
    (by simp [coordList])
  rw [hlayers, List.getLast?_concat] at e1
  cases e1
  rw [hy] at e3
  cases e3
  simp only [getAllCT, List.length_singleton, if_true, getRowsCT, e4, bind, Except.bind, pure, Except.pure]
  rw [hlayers, List.dropLast_concat, circleOf_coordList]
  have hg : rowD n v p.env g = dotR r (tangent (net.layers.dropLast.map (roundedHidden rnd)) (roundedNet rnd net).acts (coordList p)
      (coordList (field n f p))) := by
    have := rowD_matJac (v := v) (ρ := p.env) h4
    rw [k1] at this
    rw [show last.weight.map (fun r => r.map (roundBy rnd)) = [r] from e2] at this
    simp only [List.map_cons, List.map_nil, List.cons.injEq, and_true] at this
    exact this
  have hglen : g.length = n := by
    have : g ∈ [g] := by simp
    rw [m2] at this
    obtain ⟨r, _, hr⟩ := List.mem_map.mp this
    rw [← hr]; simp
  have hdE : (factors quad (vars n)).2.length = n := by cases quad <;> simp [factors]
  have hxl : f.length = n := by
    rw [← h5]; simp [postGrad, gradTerms, hglen, hdE]
  have hVdot : (Term.sum (List.zipWith Term.mul (postGrad none (gradTerms quad (vars n) z0 g)) f)).eval p.env
      = ∑ j ∈ Finset.range n, ((g.getD j (.const 0)).eval p.env * (factors quad (vars n)).1.eval p.env
          + ((factors quad (vars n)).2.getD j (.const 0)).eval p.env * z0.eval p.env) * v j := by
    rw [Term.eval_sum, List.map_zipWith]
    rw [← Fin.sum_univ_eq_sum_range (fun j => ((g.getD j (.const 0)).eval p.env * (factors quad (vars n)).1.eval p.env
          + ((factors quad (vars n)).2.getD j (.const 0)).eval p.env * z0.eval p.env) * v j) n]
    rw [← List.sum_ofFn]
    congr 1
    apply List.ext_getElem
    · simp [postGrad, gradTerms, hglen, hdE, hxl]
    · intro i hi1 hi2
      simp only [List.length_ofFn] at hi2
      have a1 : i < g.length := by omega
      have a2 : i < (factors quad (vars n)).2.length := by omega
      have a3 : i < f.length := by omega
      simp [postGrad, gradTerms, Term.eval, List.getD_eq_getElem?_getD, a1, a2, a3, hv]
  rw [← hg, hV, hVdot]
  have hdot : dotL ((coordList p).map (2 * ·)) (coordList (field n f p)) = ∑ j ∈ Finset.range n, 2 * p.env j * v j := by
    rw [← hfld]
    have : (coordList p).map (2 * ·) = (List.range n).map (fun j => 2 * p.env j) := by
      apply List.ext_getElem
      · simp [coordList]
      · intro i a b
        simp only [List.length_map, List.length_range] at b
        simp [coordList, Pt.env, b]
    rw [this, dotL_range n _ _ (by simp)]
    apply Finset.sum_congr rfl
    intro j hj
    rw [Finset.mem_range] at hj
    simp [List.getD_eq_getElem?_getD, hj]
  cases quad with
  | false =>
    simp only [Bool.false_eq_true, if_false, rowD]
    congr 4
    apply Finset.sum_congr rfl
    intro j hj
    rw [Finset.mem_range] at hj
    simp [factors, Term.eval, List.getD_eq_getElem?_getD, hj]
  | true =>
    simp only [if_true]
    congr 4
    rw [hdot, rowD, hz0, Finset.mul_sum, Finset.mul_sum, ← Finset.sum_add_distrib]
    apply Finset.sum_congr rfl
    intro j hj
    rw [Finset.mem_range] at hj
    have hE : (factors true (vars n)).1.eval p.env = normSq p := by simp only [factors, if_true]; exact sumSq_eval p
    have hd : ((factors true (vars n)).2.getD j (.const 0)).eval p.env = 2 * p.env j := by
      simp [factors, Term.eval, List.getD_eq_getElem?_getD, hj, vars]
    rw [hE, hd]
    ring

example : ∃ V Vdot, translateCT .z3 3 none true exReluNet (vars 2) [.neg (.var 1), .mul (.var 0) (.var 1)] = .ok (V, Vdot) :=
  ⟨_, _, rfl⟩

/-- C49 in discrete time, without the quadratic factor: each row is the certificate's value, its one-step difference and the squared norm. -/
theorem C49_discrete_training_partial (n : ℕ) (net : Net) (hs : Shaped n net) (S Snext : List (Pt n))
    (hl : S.length = Snext.length) :
    getAllDT net (S.map coordList) (Snext.map coordList) = .ok (List.zipWith (fun p q =>
      (certValue (-1) false net p, certValue (-1) false net q - certValue (-1) false net p, normSq p)) S Snext) := by
  have hne := shaped_ne hs
  have hfw : ∀ p : Pt n, net.forward (coordList p) = .ok (certValue (-1) false net p) := by
    intro p
    obtain ⟨last, r, nn, _, _, hf, _⟩ := getRowCT_spec hs false (coordList p) (coordList p) (by simp [coordList]) (by simp [coordList])
    rw [certValue_neg hne false p hf, hf]; simp
  simp only [getAllDT, List.length_map, hl, if_true]
  induction S generalizing Snext with
  | nil => rfl
  | cons p S ih =>
    cases Snext with
    | nil => simp at hl
    | cons q Snext =>
      have := ih Snext (by simpa using hl)
      simp only [List.map_cons, List.zip_cons_cons, List.mapM_cons, List.zipWith_cons_cons, this]
      simp [getRowDT, hfw, circleOf_coordList, bind, Except.bind, pure, Except.pure]

/-- The full statement of the discrete-time claim (with the quadratic factor) is false: with FACTORS configured, the values that training in
discrete time looks at are those of the bare network, not of the certificate. Here the certificate is `x³`, which is 8 at 2; training sees 2. -/
theorem C49_discrete_training_ignores_factor :
    ∃ net : Net, Shaped 1 net ∧ getAllDT net [coordList (n := 1) ![2]] [coordList (n := 1) ![1]] = .ok [(2, -1, 4)] ∧
      certValue (-1) true net (n := 1) ![2] = 8 := by
  refine ⟨⟨1, [⟨[[1]], none⟩], []⟩, ⟨rfl, by simp [shapedFrom], by simp, ⟨_, rfl, rfl⟩⟩, ?_, ?_⟩
  · simp [getAllDT, getRowDT, Net.forward, coordList, hiddenForward, Layer.apply, dotR, at?, circleOf, bind, Except.bind, pure,
      Except.pure]
    norm_num
  · rw [certValue_neg (by simp) true _ (y := 2)]
    · simp [normSq]; norm_num
    · simp [Net.forward, coordList, hiddenForward, Layer.apply, dotR, at?, bind, Except.bind]

theorem maxIdx_spec : ∀ (C : List ℝ), C ≠ [] → ∃ v k, maxIdx C = .ok (v, k) ∧ C[k]? = some v ∧ ∀ c ∈ C, c ≤ v := by
  intro C
  induction C with
  | nil => intro h; exact absurd rfl h
  | cons c C ih =>
    intro _
    cases C with
    | nil => exact ⟨c, 0, rfl, rfl, by simp⟩
    | cons d C =>
      obtain ⟨v, k, h1, h2, h3⟩ := ih (by simp)
      by_cases hc : c < v
      · refine ⟨v, k + 1, by simp [maxIdx, h1, hc], by simpa using h2, ?_⟩
        intro x hx
        rcases List.mem_cons.1 hx with rfl | hx
        · exact hc.le
        · exact h3 x hx
      · refine ⟨c, 0, by simp [maxIdx, h1, hc], rfl, ?_⟩
        intro x hx
        rcases List.mem_cons.1 hx with rfl | hx
        · exact le_rfl
        · exact (h3 x hx).trans (not_lt.1 hc)

/-- C49: without the quadratic factor, `compute_maximum` over a non-empty sample returns a sample and the certificate's value there, and no
sample has a larger value. -/
theorem C49_compute_maximum_partial (n : ℕ) (net : Net) (hs : Shaped n net) (S : List (Pt n)) (h : S ≠ []) :
    ∃ v, ∃ p ∈ S, net.computeMaximum (S.map coordList) = .ok (v, coordList p) ∧ v = certValue (-1) false net p ∧
      ∀ q ∈ S, certValue (-1) false net q ≤ v := by
  have hne := shaped_ne hs
  have hfw : ∀ p : Pt n, net.forward (coordList p) = .ok (certValue (-1) false net p) := by
    intro p
    obtain ⟨last, r, nn, _, _, hf, _⟩ := getRowCT_spec hs false (coordList p) (coordList p) (by simp [coordList]) (by simp [coordList])
    rw [certValue_neg hne false p hf, hf]; simp
  have hC : ∀ S : List (Pt n), (S.map coordList).mapM net.forward = .ok (S.map (certValue (-1) false net)) := by
    intro S
    induction S with
    | nil => rfl
    | cons p S ih =>
      simp only [List.map_cons, List.mapM_cons, hfw, ih, bind, Except.bind, pure, Except.pure]
  obtain ⟨v, k, h1, h2, h3⟩ := maxIdx_spec (S.map (certValue (-1) false net)) (by simpa using h)
  rw [List.getElem?_map] at h2
  obtain ⟨p, hp, rfl⟩ := Option.map_eq_some_iff.1 h2
  refine ⟨_, p, List.mem_of_getElem? hp, ?_, rfl, fun q hq => h3 _ (List.mem_map.2 ⟨q, hq, rfl⟩)⟩
  simp only [Net.computeMaximum, hC, h1, bind, Except.bind, pure, Except.pure, at?, List.getElem?_map, hp, Option.map_some]

example : Shaped 2 exampleNet ∧ ([![1, 2], ![0, 1]] : List (Pt 2)) ≠ [] := ⟨exampleNet_shaped, by simp⟩

/-- With the quadratic factor, `compute_maximum` (which sets the ROA level) is not the maximum of the certificate: here it returns 1 although the
certificate takes the value 4 on the sample. -/
theorem C49_compute_maximum_ignores_factor :
    ∃ net : Net, Shaped 1 net ∧ net.computeMaximum [coordList (n := 1) ![2]] = .ok (1, coordList (n := 1) ![2]) ∧
      certValue (-1) true net (n := 1) ![2] = 4 := by
  refine ⟨⟨1, [⟨[[1/2]], none⟩], []⟩, ⟨rfl, by simp [shapedFrom], by simp, ⟨_, rfl, rfl⟩⟩, ?_, ?_⟩
  · simp [Net.computeMaximum, Net.forward, coordList, hiddenForward, Layer.apply, dotR, at?, bind, Except.bind, pure,
      Except.pure, maxIdx]
  · rw [certValue_neg (by simp) true _ (y := 1)]
    · simp [normSq]; norm_num
    · simp [Net.forward, coordList, hiddenForward, Layer.apply, dotR, at?, bind, Except.bind]

/-- C49: derivatives that do not match the samples one by one are refused, in both time domains. -/
theorem C49_misaligned_batches_raise (net : Net) (quad : Bool) (S Sdot : List (List ℝ)) (h : S.length ≠ Sdot.length) :
    getAllCT net quad S Sdot = .error .assertionError ∧ getAllDT net S Sdot = .error .runtimeError := by
  simp [getAllCT, getAllDT, h]

example : ([[1, 2], [3, 4]] : List (List ℝ)).length ≠ ([[0, 0]] : List (List ℝ)).length := by simp

end Fossil

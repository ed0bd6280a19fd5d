/-
C49, two networks. The learners of a `DoubleCegis` are built with the option FACTORS, so training looks at `|x|²·N(x)` (learner.py:174-202), but
`TranslatorCTDouble` reads a state entry `factors` which nothing writes (translator.py:277-290), so the solver is given `N(x)` itself.
-/
import Verif.Props.C49_Training

namespace Fossil
open Spec

/-- The inner product. -/
def Spec.inner {n : ℕ} (p v : Pt n) : ℝ := ∑ i, p i * v i

theorem dotL_two {n : ℕ} (p v : Pt n) : dotL ((coordList p).map (2 * ·)) (coordList v) = 2 * inner p v := by
  have : List.zipWith (· * ·) ((coordList p).map (2 * ·)) (coordList v) = List.ofFn (fun i => 2 * (p i * v i)) := by
    apply List.ext_getElem
    · simp [coordList]
    · intro i a b
      simp [coordList, mul_assoc]
  rw [dotL, this, List.sum_ofFn, inner, Finset.mul_sum]

/-- One network: if the solver is given the network itself while training uses the factor `|x|²`, then training sees `|p|²·V(p)` instead of `V(p)`, and
`2⟨p, f p⟩·V(p) + |p|²·V̇(p)` instead of `V̇(p)`. -/
theorem factor_mismatch (lib : Lib) (net : Net) (n : ℕ) (f : List Term) (V Vdot : Term) (hs : Shaped n net)
    (h : translateCT lib (-1) none false net (vars n) f = .ok (V, Vdot)) (p : Pt n) :
    getAllCT net true [coordList p] [coordList (field n f p)] = .ok [(V.eval p.env * normSq p,
      2 * inner p (field n f p) * V.eval p.env + normSq p * Vdot.eval p.env, normSq p)] := by
  have hm := C49_training_matches_verified lib (-1) false net n f V Vdot h hs.input p
  rw [roundedNet_neg (shaped_ne hs)] at hm
  obtain ⟨last, r, nn, h1, h2, h3, h4⟩ := getRowCT_spec hs false (coordList p) (coordList (field n f p)) (by simp [coordList]) (by simp [coordList])
  obtain ⟨last', r', nn', h1', h2', h3', h4'⟩ := getRowCT_spec hs true (coordList p) (coordList (field n f p)) (by simp [coordList]) (by simp [coordList])
  rw [h1] at h1'; cases h1'
  rw [h2] at h2'; cases h2'
  rw [h3] at h3'; cases h3'
  simp only [getAllCT, getRowsCT, List.length_cons, List.length_nil, if_true, h4, h4', Bind.bind, Except.bind, pure, Except.pure, Bool.false_eq_true,
    if_false, mul_one] at hm ⊢
  have := Except.ok.inj hm
  simp only [List.cons.injEq, Prod.mk.injEq, and_true] at this
  obtain ⟨e1, e2, e3⟩ := this
  rw [e2, e1, dotL_two, circleOf_coordList]
  congr 4
  ring

/-- **C49 (two networks, FACTORS=QUADRATIC).** For every pair of networks the translator accepts (no rounding) and every state, training of both networks
looks at `|p|²` times the formulas that are verified, with the corresponding derivative. -/
theorem C49_double_factor_mismatch (lib : Lib) (lyap barr : Net) (n : ℕ) (f : List Term) (V Vdot B Bdot : Term) (hl : Shaped n lyap) (hb : Shaped n barr)
    (h : translateCTDouble lib (-1) none lyap barr (vars n) f = .ok ((V, Vdot), (B, Bdot))) (p : Pt n) :
    getAllCT lyap true [coordList p] [coordList (field n f p)] = .ok [(V.eval p.env * normSq p,
      2 * inner p (field n f p) * V.eval p.env + normSq p * Vdot.eval p.env, normSq p)] ∧
    getAllCT barr true [coordList p] [coordList (field n f p)] = .ok [(B.eval p.env * normSq p,
      2 * inner p (field n f p) * B.eval p.env + normSq p * Bdot.eval p.env, normSq p)] := by
  unfold translateCTDouble at h
  obtain ⟨a, h1, h⟩ := except_bind_ok h
  obtain ⟨b, h2, h⟩ := except_bind_ok h
  cases h
  exact ⟨factor_mismatch lib lyap n f V Vdot hl h1 p, factor_mismatch lib barr n f B Bdot hb h2 p⟩

/-- Without the option training sees the verified formulas. -/
theorem C49_double_no_factor (lib : Lib) (rnd : ℤ) (lyap barr : Net) (n : ℕ) (f : List Term) (V Vdot B Bdot : Term) (hl : lyap.inputSize = n)
    (hb : barr.inputSize = n) (h : translateCTDouble lib rnd none lyap barr (vars n) f = .ok ((V, Vdot), (B, Bdot))) (p : Pt n) :
    getAllCT (roundedNet rnd lyap) false [coordList p] [coordList (field n f p)] = .ok [(V.eval p.env, Vdot.eval p.env, normSq p)] ∧
    getAllCT (roundedNet rnd barr) false [coordList p] [coordList (field n f p)] = .ok [(B.eval p.env, Bdot.eval p.env, normSq p)] := by
  unfold translateCTDouble at h
  obtain ⟨a, h1, h⟩ := except_bind_ok h
  obtain ⟨b, h2, h⟩ := except_bind_ok h
  cases h
  exact ⟨C49_training_matches_verified lib rnd false lyap n f V Vdot h1 hl p, C49_training_matches_verified lib rnd false barr n f B Bdot h2 hb p⟩

/-- The constant network 1 on the line: weight 0, bias 1, square, output weight 1. -/
def oneNet : Net := ⟨1, [⟨[[0]], some [1]⟩, ⟨[[1]], none⟩], [.square]⟩

theorem oneNet_shaped : Shaped 1 oneNet :=
  ⟨rfl, by simp [oneNet, shapedFrom], by simp [oneNet], ⟨_, rfl, rfl⟩⟩

/-- **C49 (the mismatch matters).** With FACTORS=QUADRATIC the constant network on `ẋ = −x` is, to training, the Lyapunov function `x²`: positive with negative
derivative at every state but the origin. The formula handed to the solver is the constant 1, whose derivative is 0 at every state: it is refuted everywhere. -/
theorem C49_double_factor_stalls :
    ∃ V Vdot B Bdot, translateCTDouble .dreal (-1) none oneNet oneNet (vars 1) [.neg (.var 0)] = .ok ((V, Vdot), (B, Bdot)) ∧
      ∀ p : Pt 1, p 0 ≠ 0 → V.eval p.env = 1 ∧ Vdot.eval p.env = 0 ∧
        ∃ v d, getAllCT oneNet true [coordList p] [coordList (field 1 [.neg (.var 0)] p)] = .ok [(v, d, normSq p)] ∧ 0 < v ∧ d < 0 := by
  have key : ∃ V Vdot B Bdot, translateCTDouble .dreal (-1) none oneNet oneNet (vars 1) [.neg (.var 0)] = .ok ((V, Vdot), (B, Bdot)) ∧
      ∀ p : Pt 1, V.eval p.env = 1 ∧ Vdot.eval p.env = 0 := by
    refine ⟨_, _, _, _, rfl, fun p => ⟨?_, ?_⟩⟩ <;>
      simp [postVal, postGrad, gradTerms, factors, roundBy, hiddenBias, diagJac, Term.sum, vars, Term.eval, eyeJac, oneNet]
  obtain ⟨V, Vdot, B, Bdot, h, hv⟩ := key
  refine ⟨V, Vdot, B, Bdot, h, fun p hp => ⟨(hv p).1, (hv p).2, _, _, (C49_double_factor_mismatch .dreal oneNet oneNet 1 [.neg (.var 0)] V Vdot B Bdot
    oneNet_shaped oneNet_shaped h p).1, ?_, ?_⟩⟩
  · rw [(hv p).1]
    simp only [normSq, one_mul, Fin.sum_univ_one]
    positivity
  · rw [(hv p).1, (hv p).2]
    have : inner p (field 1 [.neg (.var 0)] p) = - (p 0 ^ 2) := by
      simp [inner, field, Term.eval, Pt.env]; ring
    rw [this]
    have : 0 < p 0 ^ 2 := by positivity
    linarith

end Fossil

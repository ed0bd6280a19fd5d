/-
C39: the sympy converter preserves values, except for powers with exponent zero when z3 numbers are used.
-/
import Verif.Converter
import Mathlib.Analysis.SpecialFunctions.Pow.Real

namespace Fossil

namespace Spec
/-- Ordinary meaning of the sympy function heads. -/
noncomputable def spFnVal : SpFn → ℝ → ℝ
  | .tanh, t => Real.tanh t
  | .sin, t => Real.sin t
  | .cos, t => Real.cos t
  | .exp, t => Real.exp t
  | .other, _ => 0

mutual
/-- Ordinary value of a sympy expression; `σ` gives the values of the symbols, `ν` those of the number literals (`ν q = q` exactly, or its
nearest float). -/
noncomputable def spVal (σ : String → ℝ) (ν : ℚ → ℚ) : SpExpr → ℝ
  | .sym n => σ n
  | .num q => (ν q : ℝ)
  | .add a as => spVal σ ν a + spSum σ ν as
  | .mul a as => spVal σ ν a * spProd σ ν as
  | .pow a e => spVal σ ν a ^ spVal σ ν e
  | .fn f a => spFnVal f (spVal σ ν a)
  | .other => 0
/-- Sum of the arguments. -/
noncomputable def spSum (σ : String → ℝ) (ν : ℚ → ℚ) : SpArgs → ℝ
  | .nil => 0
  | .cons a as => spVal σ ν a + spSum σ ν as
/-- Product of the arguments. -/
noncomputable def spProd (σ : String → ℝ) (ν : ℚ → ℚ) : SpArgs → ℝ
  | .nil => 1
  | .cons a as => spVal σ ν a * spProd σ ν as
end

/-- The symbol table is right: symbol `n` stands for an expression with value `σ n`, and functions for themselves. -/
structure SymsOk (s : Syms) (σ : String → ℝ) (ρ μ : ℕ → ℝ) : Prop where
  var : ∀ n t, s.var n = some t → t.eval ρ μ = σ n
  fn : ∀ f g, s.fn f = some g → ∀ t, g.eval t = spFnVal f t

mutual
/-- No exponent in the expression has the value 0. -/
def noZeroPow (σ : String → ℝ) (ν : ℚ → ℚ) : SpExpr → Prop
  | .sym _ => True
  | .num _ => True
  | .add a as => noZeroPow σ ν a ∧ noZeroPowArgs σ ν as
  | .mul a as => noZeroPow σ ν a ∧ noZeroPowArgs σ ν as
  | .pow a e => noZeroPow σ ν a ∧ noZeroPow σ ν e ∧ spVal σ ν e ≠ 0
  | .fn _ a => noZeroPow σ ν a
  | .other => True
/-- The same for arguments. -/
def noZeroPowArgs (σ : String → ℝ) (ν : ℚ → ℚ) : SpArgs → Prop
  | .nil => True
  | .cons a as => noZeroPow σ ν a ∧ noZeroPowArgs σ ν as
end

mutual
/-- Every symbol is in the table, and every function head is a known one that is in the table. -/
def Covered (s : Syms) : SpExpr → Prop
  | .sym n => ∃ t, s.var n = some t
  | .num _ => True
  | .add a as => Covered s a ∧ CoveredArgs s as
  | .mul a as => Covered s a ∧ CoveredArgs s as
  | .pow a e => Covered s a ∧ Covered s e
  | .fn f a => f ≠ .other ∧ (∃ g, s.fn f = some g) ∧ Covered s a
  | .other => False
/-- The same for arguments. -/
def CoveredArgs (s : Syms) : SpArgs → Prop
  | .nil => True
  | .cons a as => Covered s a ∧ CoveredArgs s as
end
end Spec
open Spec

theorem repeatMul_eval (x : AExpr) (ρ μ : ℕ → ℝ) (i : ℕ) (hi : 1 ≤ i) : (repeatMul x i).eval ρ μ = x.eval ρ μ ^ i := by
  obtain ⟨j, rfl⟩ : ∃ j, i = j + 1 := ⟨i - 1, by omega⟩
  simp only [repeatMul, Nat.add_sub_cancel]
  clear hi
  induction j with
  | zero => simp
  | succ j ih => rw [List.range_succ, List.foldl_append, List.foldl_cons, List.foldl_nil, AExpr.eval, ih]; ring

theorem literalExponent_some {tn : ToNumber} {e : AExpr} {i : ℕ} (h : literalExponent tn e = some i) :
    tn.hasSexpr = true ∧ ∃ q : ℚ, e = .num q ∧ (q : ℝ) = (i : ℝ) := by
  unfold literalExponent at h
  split_ifs at h with hs
  refine ⟨hs, ?_⟩
  split at h
  · rename_i q
    split_ifs at h with hq
    cases h
    refine ⟨q, rfl, ?_⟩
    have h1 : ((q.num.toNat : ℕ) : ℤ) = q.num := Int.toNat_of_nonneg hq.2
    have h2 := Rat.coe_int_num_of_den_eq_one hq.1
    have h3 : (q : ℝ) = ((q.num : ℤ) : ℝ) := by exact_mod_cast congrArg (fun z : ℚ => (z : ℝ)) h2.symm
    rw [h3]; exact_mod_cast h1.symm
  · cases h

mutual
theorem spConvert_val {s : Syms} {tn : ToNumber} {σ : String → ℝ} {ρ μ : ℕ → ℝ} (hs : SymsOk s σ ρ μ) (b : Bool) :
    ∀ (e : SpExpr) (t : AExpr), (b = true → tn.hasSexpr = true → noZeroPow σ tn.val e) →
      spConvert s tn b e = .ok t → t.eval ρ μ = spVal σ tn.val e
  | .sym n, t, hz, h => by
    simp only [spConvert] at h
    split at h
    · rename_i t' ht; cases h; exact hs.var _ _ ht
    · cases h
  | .num q, t, hz, h => by simp only [spConvert] at h; cases h; rfl
  | .add a as, t, hz, h => by
    simp only [spConvert] at h
    obtain ⟨ta, h1, h2⟩ := except_bind_ok h
    simp only [noZeroPow] at hz
    simp only [spVal]
    rw [spConvertAdd_val hs b as ta t (fun hb hx => (hz hb hx).2) h2, spConvert_val hs b a ta (fun hb hx => (hz hb hx).1) h1]
  | .mul a as, t, hz, h => by
    simp only [spConvert] at h
    obtain ⟨ta, h1, h2⟩ := except_bind_ok h
    simp only [noZeroPow] at hz
    simp only [spVal]
    rw [spConvertMul_val hs b as ta t (fun hb hx => (hz hb hx).2) h2, spConvert_val hs b a ta (fun hb hx => (hz hb hx).1) h1]
  | .pow a e, t, hz, h => by
    simp only [spConvert] at h
    obtain ⟨x, h1, h⟩ := except_bind_ok h
    obtain ⟨k, h2, h⟩ := except_bind_ok h
    simp only [noZeroPow] at hz
    have ha := spConvert_val hs b a x (fun hb hx => (hz hb hx).1) h1
    have he := spConvert_val hs b e k (fun hb hx => (hz hb hx).2.1) h2
    simp only [spVal]
    split_ifs at h with hb
    · split at h
      · rename_i i hi
        cases h
        obtain ⟨hx, q, rfl, hq⟩ := literalExponent_some hi
        have hval : spVal σ tn.val e = (i : ℝ) := by rw [← he, ← hq]; rfl
        have hi0 : i ≠ 0 := by
          rintro rfl
          exact (hz hb hx).2.2 (by simpa using hval)
        rw [repeatMul_eval x ρ μ i (by omega), ha, hval, Real.rpow_natCast]
      · obtain ⟨x', h3, h⟩ := except_bind_ok h
        obtain ⟨k', h4, h⟩ := except_bind_ok h
        cases h
        have ha' := spConvert_val hs false a x' (fun hb => by cases hb) h3
        have he' := spConvert_val hs false e k' (fun hb => by cases hb) h4
        simp only [AExpr.eval, ha', he']
    · cases h
      simp only [AExpr.eval, ha, he]
  | .fn f a, t, hz, h => by
    simp only [noZeroPow] at hz
    cases f <;> simp only [spConvert] at h <;>
    first
    | cases h; done
    | obtain ⟨ta, h1, h2⟩ := except_bind_ok h
      simp only [applyFn] at h2
      split at h2
      · rename_i g hg
        cases h2
        simp only [AExpr.eval, spVal, spConvert_val hs b a ta hz h1]
        exact hs.fn _ _ hg _
      · cases h2
  | .other, t, hz, h => by simp only [spConvert] at h; cases h
theorem spConvertAdd_val {s : Syms} {tn : ToNumber} {σ : String → ℝ} {ρ μ : ℕ → ℝ} (hs : SymsOk s σ ρ μ) (b : Bool) :
    ∀ (as : SpArgs) (rv t : AExpr), (b = true → tn.hasSexpr = true → noZeroPowArgs σ tn.val as) →
      spConvertAdd s tn b rv as = .ok t → t.eval ρ μ = rv.eval ρ μ + spSum σ tn.val as
  | .nil, rv, t, hz, h => by simp only [spConvertAdd] at h; cases h; simp [spSum]
  | .cons e as, rv, t, hz, h => by
    simp only [spConvertAdd] at h
    obtain ⟨te, h1, h2⟩ := except_bind_ok h
    simp only [noZeroPowArgs] at hz
    rw [spConvertAdd_val hs b as _ t (fun hb hx => (hz hb hx).2) h2, AExpr.eval, spConvert_val hs b e te (fun hb hx => (hz hb hx).1) h1,
      spSum, add_assoc]
theorem spConvertMul_val {s : Syms} {tn : ToNumber} {σ : String → ℝ} {ρ μ : ℕ → ℝ} (hs : SymsOk s σ ρ μ) (b : Bool) :
    ∀ (as : SpArgs) (rv t : AExpr), (b = true → tn.hasSexpr = true → noZeroPowArgs σ tn.val as) →
      spConvertMul s tn b rv as = .ok t → t.eval ρ μ = rv.eval ρ μ * spProd σ tn.val as
  | .nil, rv, t, hz, h => by simp only [spConvertMul] at h; cases h; simp [spProd]
  | .cons e as, rv, t, hz, h => by
    simp only [spConvertMul] at h
    obtain ⟨te, h1, h2⟩ := except_bind_ok h
    simp only [noZeroPowArgs] at hz
    rw [spConvertMul_val hs b as _ t (fun hb hx => (hz hb hx).2) h2, AExpr.eval, spConvert_val hs b e te (fun hb hx => (hz hb hx).1) h1,
      spProd, mul_assoc]
end

mutual
theorem spConvert_ok {s : Syms} (tn : ToNumber) : ∀ (b : Bool) (e : SpExpr), Covered s e → ∃ t, spConvert s tn b e = .ok t
  | b, .sym n, h => by simp only [Covered] at h; obtain ⟨t, ht⟩ := h; exact ⟨t, by simp only [spConvert, ht]⟩
  | b, .num q, h => ⟨_, by simp only [spConvert]; rfl⟩
  | b, .add a as, h => by
    simp only [Covered] at h
    obtain ⟨t, ht⟩ := spConvert_ok tn b a h.1
    obtain ⟨t', ht'⟩ := spConvertAdd_ok tn b as h.2 t
    exact ⟨t', by simp only [spConvert, ht]; exact ht'⟩
  | b, .mul a as, h => by
    simp only [Covered] at h
    obtain ⟨t, ht⟩ := spConvert_ok tn b a h.1
    obtain ⟨t', ht'⟩ := spConvertMul_ok tn b as h.2 t
    exact ⟨t', by simp only [spConvert, ht]; exact ht'⟩
  | b, .pow a e, h => by
    simp only [Covered] at h
    obtain ⟨x, hx⟩ := spConvert_ok tn b a h.1
    obtain ⟨k, hk⟩ := spConvert_ok tn b e h.2
    obtain ⟨x', hx'⟩ := spConvert_ok tn false a h.1
    obtain ⟨k', hk'⟩ := spConvert_ok tn false e h.2
    cases b with
    | false => exact ⟨.pow x k, by simp [spConvert, hx, hk, bind, Except.bind, pure, Except.pure]⟩
    | true =>
      cases hl : literalExponent tn k with
      | none => exact ⟨.pow x' k', by simp [spConvert, hx, hk, hx', hk', hl, bind, Except.bind, pure, Except.pure]⟩
      | some i => exact ⟨repeatMul x i, by simp [spConvert, hx, hk, hl, bind, Except.bind, pure, Except.pure]⟩
  | b, .fn f a, h => by
    simp only [Covered] at h
    obtain ⟨hf, ⟨g, hg⟩, ha⟩ := h
    obtain ⟨t, ht⟩ := spConvert_ok tn b a ha
    refine ⟨.app g t, ?_⟩
    cases f <;> simp_all [spConvert, applyFn, bind, Except.bind]
  | b, .other, h => by simp only [Covered] at h
theorem spConvertAdd_ok {s : Syms} (tn : ToNumber) : ∀ (b : Bool) (as : SpArgs), CoveredArgs s as → ∀ rv, ∃ t,
    spConvertAdd s tn b rv as = .ok t
  | b, .nil, h, rv => ⟨_, by simp only [spConvertAdd]; rfl⟩
  | b, .cons e as, h, rv => by
    simp only [CoveredArgs] at h
    obtain ⟨t, ht⟩ := spConvert_ok tn b e h.1
    obtain ⟨t', ht'⟩ := spConvertAdd_ok tn b as h.2 (.add rv t)
    exact ⟨t', by simp only [spConvertAdd, ht]; exact ht'⟩
theorem spConvertMul_ok {s : Syms} (tn : ToNumber) : ∀ (b : Bool) (as : SpArgs), CoveredArgs s as → ∀ rv, ∃ t,
    spConvertMul s tn b rv as = .ok t
  | b, .nil, h, rv => ⟨_, by simp only [spConvertMul]; rfl⟩
  | b, .cons e as, h, rv => by
    simp only [CoveredArgs] at h
    obtain ⟨t, ht⟩ := spConvert_ok tn b e h.1
    obtain ⟨t', ht'⟩ := spConvertMul_ok tn b as h.2 (.mul rv t)
    exact ⟨t', by simp only [spConvertMul, ht]; exact ht'⟩
end

mutual
theorem covered_of_ok {s : Syms} (tn : ToNumber) : ∀ (b : Bool) (e : SpExpr) (t : AExpr), spConvert s tn b e = .ok t → Covered s e
  | b, .sym n, t, h => by
    simp only [spConvert] at h
    simp only [Covered]
    split at h
    · rename_i t' ht; exact ⟨t', ht⟩
    · cases h
  | b, .num q, t, h => by simp only [Covered]
  | b, .add a as, t, h => by
    simp only [spConvert] at h
    obtain ⟨ta, h1, h2⟩ := except_bind_ok h
    simp only [Covered]
    exact ⟨covered_of_ok tn b a ta h1, coveredAdd_of_ok tn b as ta t h2⟩
  | b, .mul a as, t, h => by
    simp only [spConvert] at h
    obtain ⟨ta, h1, h2⟩ := except_bind_ok h
    simp only [Covered]
    exact ⟨covered_of_ok tn b a ta h1, coveredMul_of_ok tn b as ta t h2⟩
  | b, .pow a e, t, h => by
    simp only [spConvert] at h
    obtain ⟨x, h1, h⟩ := except_bind_ok h
    obtain ⟨k, h2, h⟩ := except_bind_ok h
    simp only [Covered]
    exact ⟨covered_of_ok tn b a x h1, covered_of_ok tn b e k h2⟩
  | b, .fn f a, t, h => by
    simp only [Covered]
    cases f <;> simp only [spConvert] at h <;>
    first
    | cases h; done
    | obtain ⟨ta, h1, h2⟩ := except_bind_ok h
      refine ⟨by simp, ?_, covered_of_ok tn b a ta h1⟩
      simp only [applyFn] at h2
      split at h2
      · rename_i g hg; exact ⟨g, hg⟩
      · cases h2
  | b, .other, t, h => by simp only [spConvert] at h; cases h
theorem coveredAdd_of_ok {s : Syms} (tn : ToNumber) : ∀ (b : Bool) (as : SpArgs) (rv t : AExpr),
    spConvertAdd s tn b rv as = .ok t → CoveredArgs s as
  | b, .nil, rv, t, h => by simp only [CoveredArgs]
  | b, .cons e as, rv, t, h => by
    simp only [spConvertAdd] at h
    obtain ⟨te, h1, h2⟩ := except_bind_ok h
    simp only [CoveredArgs]
    exact ⟨covered_of_ok tn b e te h1, coveredAdd_of_ok tn b as _ t h2⟩
theorem coveredMul_of_ok {s : Syms} (tn : ToNumber) : ∀ (b : Bool) (as : SpArgs) (rv t : AExpr),
    spConvertMul s tn b rv as = .ok t → CoveredArgs s as
  | b, .nil, rv, t, h => by simp only [CoveredArgs]
  | b, .cons e as, rv, t, h => by
    simp only [spConvertMul] at h
    obtain ⟨te, h1, h2⟩ := except_bind_ok h
    simp only [CoveredArgs]
    exact ⟨covered_of_ok tn b e te h1, coveredMul_of_ok tn b as _ t h2⟩
end

/-- **C39 (default settings).** With Python floats (the default `to_number`) conversion preserves the value of every expression at every
point, whatever `expand_pow` is. -/
theorem C39_value_preserved (s : Syms) (tn : ToNumber) (hf : tn.hasSexpr = false) (σ : String → ℝ) (ρ μ : ℕ → ℝ) (hs : SymsOk s σ ρ μ)
    (b : Bool) (e : SpExpr) (t : AExpr) (h : spConvert s tn b e = .ok t) : t.eval ρ μ = spVal σ tn.val e :=
  spConvert_val hs b e t (fun _ hx => by rw [hf] at hx; cases hx) h

/-- **C39 (z3 numbers, partial).** With z3 numbers, integer powers are unrolled into products; the value is preserved at every point where
no exponent is zero, and always without `expand_pow`. -/
theorem C39_value_preserved_z3_partial (s : Syms) (tn : ToNumber) (σ : String → ℝ) (ρ μ : ℕ → ℝ) (hs : SymsOk s σ ρ μ)
    (b : Bool) (e : SpExpr) (t : AExpr) (hz : b = true → noZeroPow σ tn.val e) (h : spConvert s tn b e = .ok t) :
    t.eval ρ μ = spVal σ tn.val e :=
  spConvert_val hs b e t (fun hb _ => hz hb) h

/-- **C39, the missing case.** `x ** 0` (unevaluated) is converted to `x` when z3 numbers are used. -/
theorem C39_zero_exponent_wrong (s : Syms) (x : AExpr) (hx : s.var "x" = some x) (σ : String → ℝ) :
    spConvert s ⟨id, true⟩ true (.pow (.sym "x") (.num 0)) = .ok x ∧ spVal σ id (.pow (.sym "x") (.num 0)) = 1 := by
  constructor
  · simp [spConvert, hx, literalExponent, repeatMul, bind, Except.bind, pure, Except.pure]
  · simp [spVal]

/-- **C39.** Conversion succeeds exactly on the expressions all of whose symbols and functions are in the table: a symbol that is missing,
an unknown function or an unknown head anywhere in the expression is an error. -/
theorem C39_converts_iff_covered (s : Syms) (tn : ToNumber) (b : Bool) (e : SpExpr) :
    (∃ t, spConvert s tn b e = .ok t) ↔ Covered s e :=
  ⟨fun ⟨t, h⟩ => covered_of_ok tn b e t h, spConvert_ok tn b e⟩

/-- A table for one variable and all functions, and a nested expression with a square, a sine and a negative power. -/
example : ∃ (s : Syms) (e : SpExpr) (t : AExpr), SymsOk s (fun _ => 3) (fun _ => 3) (fun _ => 0) ∧ Covered s e ∧
    noZeroPow (fun _ => 3) id e ∧ spConvert s ⟨id, true⟩ true e = .ok t ∧
    t = .add (.mul (.x 0) (.x 0)) (.mul (.app .sin (.x 0)) (.pow (.x 0) (.num (-1)))) := by
  refine ⟨⟨fun n => if n = "x" then some (.x 0) else none,
      fun f => match f with | .tanh => some .tanh | .sin => some .sin | .cos => some .cos | .exp => some .exp | .other => none⟩,
    .add (.pow (.sym "x") (.num 2)) (.cons (.mul (.fn .sin (.sym "x")) (.cons (.pow (.sym "x") (.num (-1))) .nil)) .nil), _,
    ⟨?_, ?_⟩, ?_, ?_, ?_, rfl⟩
  · intro n t h
    simp only at h
    split_ifs at h
    cases h; rfl
  · intro f g h t
    cases f <;> simp at h <;> subst h <;> rfl
  · simp [Covered, CoveredArgs]
  · simp [noZeroPow, noZeroPowArgs, spVal]
  · have h2 : literalExponent ⟨id, true⟩ (.num 2) = some 2 := by decide +kernel
    have h1 : literalExponent ⟨id, true⟩ (.num (-1)) = none := by decide +kernel
    simp [spConvert, spConvertAdd, spConvertMul, applyFn, h1, h2, bind, Except.bind, pure, Except.pure, repeatMul]

end Fossil

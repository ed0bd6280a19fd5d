/-
Lemmas about activations: every activation acts coordinate by coordinate, the symbolic forward pass agrees
with the numeric one, and the symbolic derivative is the derivative.
-/
import Verif.Net
import Mathlib.Analysis.SpecialFunctions.Trigonometric.DerivHyp

namespace Fossil

/-! ### poly activations -/

/-- Index of the part containing global index `i`, from the part lengths. -/
def partIndex : List ℕ → ℕ → ℕ
  | [], _ => 0
  | l :: ls, i => if i < l then 0 else 1 + partIndex ls (i - l)

theorem polyCat_eq_mapIdx {α β : Type _} (g : ℕ → α → β) (P : List (List α)) :
    polyCat g P = P.flatten.mapIdx (fun i t => g (partIndex (P.map List.length) i) t) := by
  unfold polyCat
  induction P generalizing g with
  | nil => simp
  | cons p P ih =>
    rw [List.mapIdx_cons, List.flatten_cons, List.flatten_cons, List.mapIdx_append]
    rw [ih (fun i => g (i + 1))]
    congr 1
    · apply List.ext_getElem
      · simp
      · intro i h1 h2
        simp only [List.length_map] at h1
        simp [partIndex, h1]
    · apply List.ext_getElem
      · simp
      · intro i h1 h2
        simp [partIndex, Nat.add_comm]

theorem flatten_slices {α : Type _} (x : List α) (h m : ℕ) :
    ((List.range m).map (fun i => (x.drop (i * h)).take h)).flatten = x.take (m * h) := by
  induction m with
  | zero => simp
  | succ m ih =>
    rw [List.range_succ, List.map_append, List.flatten_append, ih]
    simp [Nat.succ_mul, List.take_add]

theorem polyParts_flatten {α : Type _} (n : ℕ) (x : List α) : (polyParts n x).flatten = x := by
  simp only [polyParts, List.flatten_append, flatten_slices]
  simp

theorem polyParts_lengths {α β : Type _} (n : ℕ) (x : List α) (y : List β) (h : x.length = y.length) :
    (polyParts n x).map List.length = (polyParts n y).map List.length := by
  simp [polyParts, h, Function.comp_def]

/-- exponent index used at position `i` by a poly activation with `n` parts on `len` inputs -/
def polyIdx (n len i : ℕ) : ℕ := partIndex ((polyParts n (List.replicate len ())).map List.length) i

theorem polyCat_parts {α β : Type _} (g : ℕ → α → β) (n : ℕ) (x : List α) :
    polyCat g (polyParts n x) = x.mapIdx (fun i t => g (polyIdx n x.length i) t) := by
  rw [polyCat_eq_mapIdx, polyParts_flatten]
  simp only [polyIdx]
  rw [polyParts_lengths n x (List.replicate x.length ()) (by simp)]

theorem poly2_cat {α β : Type _} (f g : α → β) (h : ℕ) (x : List α) :
    (x.take h).map f ++ (x.drop h).map g = x.mapIdx (fun i t => if i < h then f t else g t) := by
  apply List.ext_getElem
  · simp; omega
  · intro i h1 h2
    simp only [List.length_mapIdx] at h2
    rw [List.getElem_append]
    simp only [List.length_map, List.length_take, List.getElem_map, List.getElem_take,
      List.getElem_drop, List.getElem_mapIdx]
    by_cases hi : i < h
    · have : i < min h x.length := by omega
      simp [hi, this]
    · have h3 : ¬ i < min h x.length := by omega
      simp only [hi, h3, dif_neg, if_neg, not_false_eq_true]
      congr 2
      omega

/-! ### scalar forms -/

/-- The scalar function applied at position `i` among `len` inputs. -/
noncomputable def Act.scal (a : Act) (len i : ℕ) : ℝ → ℝ :=
  match a with
  | .identity => fun t => t
  | .relu => fun t => max t 0
  | .square => (· ^ 2)
  | .poly2 => if i < len / 2 then fun t => t else (· ^ 2)
  | .tanh => Real.tanh
  | .tanhSquared => fun t => Real.tanh t ^ 2
  | .sigmoid => fun t => 1 / (1 + Real.exp (-t))
  | .softplus => fun t => Real.log (1 + Real.exp t)
  | .shiftedSoftplus => fun t => Real.log (1 + Real.exp t) - Real.log 2
  | .shiftedSoftplusSquare => fun t => (Real.log (1 + Real.exp t) - Real.log 2) ^ 2
  | .cosh => fun t => Real.cosh t - 1
  | .polyN n => fun t => t ^ (polyIdx n len i + 1)
  | .evenPolyN n => fun t => t ^ (2 * polyIdx n len i)

/-- `map` as `mapIdx`. -/
theorem map_eq_mapIdx {α β : Type _} (f : α → β) (x : List α) : x.map f = x.mapIdx (fun _ => f) := by
  apply List.ext_getElem <;> simp

theorem Act.forward_eq (a : Act) (x : List ℝ) : a.forward x = x.mapIdx (a.scal x.length) := by
  cases a
  case poly2 =>
    have := poly2_cat (fun t : ℝ => t) (fun t : ℝ => t ^ 2) (x.length / 2) x
    simp only [List.map_id'] at this
    simp only [Act.forward, this]
    congr 1
    funext i t
    simp only [Act.scal]
    split <;> rfl
  case polyN n => simp only [Act.forward, polyCat_parts]; rfl
  case evenPolyN n => simp only [Act.forward, polyCat_parts]; rfl
  case identity =>
    simp only [Act.forward, Act.scal]
    have := map_eq_mapIdx (fun t : ℝ => t) x
    rw [List.map_id'] at this
    exact this
  all_goals
    simp only [Act.forward, Act.scal]
    exact map_eq_mapIdx _ x

theorem tanhTerm_eval (lib : Lib) (t : Term) (ρ : Env) : (tanhTerm lib t).eval ρ = Real.tanh (t.eval ρ) := by
  cases lib <;> simp only [tanhTerm, Term.eval, Fn.eval]
  rw [Real.tanh_eq_sinh_div_cosh, Real.sinh_eq, Real.cosh_eq]
  have : Real.exp (t.eval ρ) + Real.exp (- t.eval ρ) ≠ 0 := by positivity
  field_simp

/-- the symbolic forward pass is positionwise and evaluates to the numeric scalar function -/
theorem Act.forwardSym_spec {lib : Lib} {a : Act} {x y : List Term} (h : a.forwardSym lib x = .ok y) :
    ∃ F : ℕ → Term → Term, y = x.mapIdx F ∧
      ∀ i t ρ, (F i t).eval ρ = a.scal x.length i (t.eval ρ) := by
  cases a <;> simp only [Act.forwardSym] at h
  case identity =>
    cases h
    refine ⟨fun _ t => t, ?_, fun i t ρ => rfl⟩
    simpa using map_eq_mapIdx (fun t : Term => t) x
  case square =>
    cases h
    refine ⟨fun _ t => .pow t 2, map_eq_mapIdx _ x, fun i t ρ => ?_⟩
    simp only [Term.eval, Act.scal]; norm_cast
  case poly2 =>
    cases h
    refine ⟨fun i t => if i < x.length / 2 then t else .pow t 2, ?_, fun i t ρ => ?_⟩
    · simpa using poly2_cat (fun t : Term => t) (fun t => Term.pow t 2) (x.length / 2) x
    · simp only [Act.scal]
      split
      · rfl
      · simp only [Term.eval]; norm_cast
  case polyN n =>
    cases h
    refine ⟨fun i t => .pow t (polyIdx n x.length i + 1), polyCat_parts _ n x, fun i t ρ => ?_⟩
    simp only [Term.eval, Act.scal]; norm_cast
  case evenPolyN n =>
    cases h
    refine ⟨fun i t => .pow t (2 * (polyIdx n x.length i)), polyCat_parts _ n x, fun i t ρ => ?_⟩
    simp only [Term.eval, Act.scal]; norm_cast
  case relu =>
    cases lib <;> simp [Lib.need, Lib.has] at h <;> cases h <;>
    exact ⟨fun _ => .app .relu, map_eq_mapIdx _ x, fun i t ρ => rfl⟩
  case tanh =>
    cases lib <;> simp [Lib.need, Lib.has] at h <;> cases h <;>
    exact ⟨fun _ => _, map_eq_mapIdx _ x, fun i t ρ => tanhTerm_eval _ t ρ⟩
  case tanhSquared =>
    cases lib <;> simp [Lib.need, Lib.has] at h <;> cases h <;>
    refine ⟨fun _ => _, map_eq_mapIdx _ x, fun i t ρ => ?_⟩ <;>
    · simp only [Term.eval, tanhTerm_eval, Act.scal]; norm_cast
  case sigmoid =>
    cases lib <;> simp [Lib.need, Lib.has] at h <;> cases h <;>
    refine ⟨fun _ => _, map_eq_mapIdx _ x, fun i t ρ => ?_⟩ <;>
    simp [Term.eval, Act.scal, one, Fn.eval]
  all_goals
    cases lib <;> simp [needDreal] at h <;> cases h
    refine ⟨fun _ => _, map_eq_mapIdx _ x, fun i t ρ => ?_⟩
    simp only [Term.eval, Act.scal, one, Fn.eval]
    try norm_num
    try norm_cast

theorem hasDerivAt_tanh (x : ℝ) : HasDerivAt Real.tanh (1 - Real.tanh x ^ 2) x := by
  have hc : Real.cosh x ≠ 0 := (Real.cosh_pos x).ne'
  have h := (Real.hasDerivAt_sinh x).div (Real.hasDerivAt_cosh x) hc
  have e : Real.tanh = Real.sinh / Real.cosh := by
    funext y; simp [Real.tanh_eq_sinh_div_cosh]
  rw [e]
  refine HasDerivAt.congr_deriv h ?_
  simp only [Pi.div_apply]
  field_simp

theorem hasDerivAt_softplus (x : ℝ) :
    HasDerivAt (fun t => Real.log (1 + Real.exp t)) (Real.exp x / (1 + Real.exp x)) x := by
  have h1 : HasDerivAt (fun t => 1 + Real.exp t) (Real.exp x) x := (Real.hasDerivAt_exp x).const_add 1
  exact h1.log (by positivity)

theorem sigmoid_form (x : ℝ) : Real.exp x / (1 + Real.exp x) = 1 / (1 + Real.exp (-x)) := by
  rw [Real.exp_neg]
  have := Real.exp_pos x
  field_simp
  ring

/-- the symbolic derivative is positionwise and is the derivative of the scalar function -/
theorem Act.derivativeSym_spec {lib : Lib} {a : Act} {x d : List Term} (h : a.derivativeSym lib x = .ok d) :
    ∃ D : ℕ → Term → Term, d = x.mapIdx D ∧
      ∀ i t ρ, (a = .relu → t.eval ρ ≠ 0) →
        HasDerivAt (a.scal x.length i) ((D i t).eval ρ) (t.eval ρ) := by
  cases a <;> simp only [Act.derivativeSym] at h
  case identity =>
    cases h
    refine ⟨fun _ _ => one, map_eq_mapIdx _ x, fun i t ρ _ => ?_⟩
    simpa [Act.scal, one, Term.eval] using hasDerivAt_id' (t.eval ρ)
  case square =>
    cases h
    refine ⟨fun _ t => .mul (.const 2) t, map_eq_mapIdx _ x, fun i t ρ _ => ?_⟩
    simpa [Act.scal, Term.eval] using hasDerivAt_pow 2 (t.eval ρ)
  case poly2 =>
    cases h
    refine ⟨fun i t => if i < x.length / 2 then one else .mul (.const 2) t, ?_, fun i t ρ _ => ?_⟩
    · simpa using poly2_cat (fun _ : Term => one) (fun t => Term.mul (.const 2) t) (x.length / 2) x
    · simp only [Act.scal]
      split
      · simpa [one, Term.eval] using hasDerivAt_id' (t.eval ρ)
      · simpa [Term.eval] using hasDerivAt_pow 2 (t.eval ρ)
  case polyN n =>
    cases h
    refine ⟨fun i t => .mul (.const (polyIdx n x.length i + 1)) (.pow t (polyIdx n x.length i)),
      polyCat_parts _ n x, fun i t ρ _ => ?_⟩
    simpa [Act.scal, Term.eval] using hasDerivAt_pow (polyIdx n x.length i + 1) (t.eval ρ)
  case evenPolyN n =>
    cases h
    refine ⟨fun i t => .mul (.const (2 * (polyIdx n x.length i)))
      (.pow t (2 * ((polyIdx n x.length i : ℕ) : ℤ) - 1)), polyCat_parts _ n x, fun i t ρ _ => ?_⟩
    have h := hasDerivAt_pow (2 * polyIdx n x.length i) (t.eval ρ)
    simp only [Act.scal, Term.eval]
    refine HasDerivAt.congr_deriv h ?_
    generalize polyIdx n x.length i = m
    rcases Nat.eq_zero_or_pos m with h0 | h0
    · simp [h0]
    · push_cast
      congr 1
      rw [← zpow_natCast]
      congr 1
      omega
  case relu =>
    cases lib <;> simp [Lib.need, Lib.has] at h <;> cases h <;>
    refine ⟨fun _ => .app .step, map_eq_mapIdx _ x, fun i t ρ hne => ?_⟩ <;>
    · simp only [Act.scal, Term.eval, Fn.eval]
      rcases lt_or_gt_of_ne (hne rfl) with h | h
      · rw [if_neg (not_lt.mpr h.le)]
        have := hasDerivAt_const (t.eval ρ) (0:ℝ)
        refine this.congr_of_eventuallyEq ?_
        filter_upwards [Iio_mem_nhds h] with y hy
        exact max_eq_right (le_of_lt hy)
      · rw [if_pos h]
        refine (hasDerivAt_id' (t.eval ρ)).congr_of_eventuallyEq ?_
        filter_upwards [Ioi_mem_nhds h] with y hy
        exact max_eq_left (le_of_lt hy)
  case tanh =>
    cases lib <;> simp [Lib.need, Lib.has] at h <;> cases h <;>
    refine ⟨fun _ => _, map_eq_mapIdx _ x, fun i t ρ _ => ?_⟩ <;>
    · have := hasDerivAt_tanh (t.eval ρ)
      simp only [Act.scal, Term.eval, tanhTerm_eval, one]
      refine HasDerivAt.congr_deriv this ?_
      norm_num
  case tanhSquared =>
    cases lib <;> simp [Lib.need, Lib.has] at h <;> cases h <;>
    refine ⟨fun _ => _, map_eq_mapIdx _ x, fun i t ρ _ => ?_⟩ <;>
    · have := (hasDerivAt_tanh (t.eval ρ)).pow 2
      simp only [Act.scal, Term.eval, tanhTerm_eval, one]
      refine HasDerivAt.congr_deriv this ?_
      norm_num
  case sigmoid =>
    cases lib <;> simp [Lib.need, Lib.has] at h <;> cases h <;>
    refine ⟨fun _ => _, map_eq_mapIdx _ x, fun i t ρ _ => ?_⟩ <;>
    · have h1 : HasDerivAt (fun t => 1 + Real.exp (-t)) (-Real.exp (-(t.eval ρ))) (t.eval ρ) := by
        have := ((hasDerivAt_neg (t.eval ρ)).exp).const_add 1
        simpa using this
      have h2 := (h1.inv (by positivity))
      simp only [Act.scal, Term.eval, one, Fn.eval]
      simp only [one_div]
      refine HasDerivAt.congr_deriv h2 ?_
      simp only [neg_neg]; push_cast; norm_cast
  case softplus =>
    cases lib <;> simp [needDreal] at h <;> cases h
    refine ⟨fun _ => _, map_eq_mapIdx _ x, fun i t ρ _ => ?_⟩
    have := hasDerivAt_softplus (t.eval ρ)
    rw [sigmoid_form] at this
    simpa [Act.scal, Term.eval, one, Fn.eval] using this
  case shiftedSoftplus =>
    cases lib <;> simp [needDreal] at h <;> cases h
    refine ⟨fun _ => _, map_eq_mapIdx _ x, fun i t ρ _ => ?_⟩
    have := (hasDerivAt_softplus (t.eval ρ)).sub_const (Real.log 2)
    rw [sigmoid_form] at this
    simpa [Act.scal, Term.eval, one, Fn.eval] using this
  case shiftedSoftplusSquare =>
    cases lib <;> simp [needDreal] at h <;> cases h
    refine ⟨fun _ => _, map_eq_mapIdx _ x, fun i t ρ _ => ?_⟩
    have := ((hasDerivAt_softplus (t.eval ρ)).sub_const (Real.log 2)).pow 2
    simp only [Act.scal, Term.eval, one, Fn.eval]
    refine HasDerivAt.congr_deriv this ?_
    have hp : (0:ℝ) < 1 + Real.exp (t.eval ρ) := by positivity
    have : Real.log (((2⁻¹ : ℚ) : ℝ) * (((1:ℚ):ℝ) + Real.exp (t.eval ρ)))
        = Real.log (1 + Real.exp (t.eval ρ)) - Real.log 2 := by
      rw [← Real.log_div hp.ne' (by norm_num)]
      congr 1
      push_cast; ring
    rw [this]
    push_cast
    norm_num
    ring
  case cosh =>
    cases lib <;> simp [needDreal] at h <;> cases h
    refine ⟨fun _ => _, map_eq_mapIdx _ x, fun i t ρ _ => ?_⟩
    have := (Real.hasDerivAt_cosh (t.eval ρ)).sub_const 1
    simpa [Act.scal, Term.eval, one, Fn.eval] using this

end Fossil

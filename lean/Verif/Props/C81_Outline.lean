/-
C81: the outlines in the figures are the boundaries of the configured sets (where they are).
-/
import Verif.Plot
import Verif.Spec.Sets
import Mathlib.Topology.Order.OrderClosed
import Mathlib.Analysis.SpecialFunctions.Trigonometric.Bounds
import Mathlib.Analysis.Convex.Segment

namespace Fossil
open Spec

namespace Spec

/-- `q` lies on the polygonal line through the points. -/
def onPath : List (ℝ × ℝ) → Pt 2 → Prop
  | u :: v :: rest, q => (q 0, q 1) ∈ _root_.segment ℝ u v ∨ onPath (v :: rest) q
  | _, _ => False

/-- Both coordinates, in order. -/
def Straight (ds : Option (List ℕ)) : Prop := noSel ds ∨ ds = some [0, 1]

/-- A planar set expression made of boxes, discs, ellipses and rings (all parameters given for both coordinates, radii not negative; only ellipses may exchange the coordinates) with unions,
differences and complements. -/
def Outlined : PySet → Prop
  | .rectangle lb ub ds | .openRectangle lb ub ds => lb.length = 2 ∧ ub.length = 2 ∧ Straight ds
  | .sphere c r ds | .openSphere c r ds => c.length = 2 ∧ Straight ds ∧ 0 ≤ r
  | .ellipse a c r ds => a.length = 2 ∧ c.length = 2 ∧ (ds = none ∨ ds = some [0, 1] ∨ ds = some [1, 0]) ∧ 0 ≤ r ∧ ∀ x ∈ a, x ≠ 0
  | .torus c ro ri ds => c.length = 2 ∧ Straight ds ∧ 0 ≤ ri ∧ ri < ro
  | .union S T | .setMinus S T => Outlined S ∧ Outlined T
  | .compl S => Outlined S
  | _ => False

/-- How far, per coordinate, a drawn curve may be from the boundary: boxes are exact, circles have 50 corners. -/
noncomputable def tol : Curve → ℝ × ℝ
  | .box .. => (0, 0)
  | .arc _ _ rx ry _ => (|(rx : ℝ)| * (Real.pi / 49), |(ry : ℝ)| * (Real.pi / 49))

/-- `p` is shown by the curve. -/
def Shown (d : Drawn) (p : Pt 2) : Prop :=
  ∃ q, onPath d.curve.path q ∧ |p 0 - q 0| ≤ (tol d.curve).1 ∧ |p 1 - q 1| ≤ (tol d.curve).2

end Spec

/-! ### membership in the plane -/

theorem coords_two {ds : Option (List ℕ)} (h : Straight ds) (p : Pt 2) : coords ds p = [p 0, p 1] := by
  rcases h with (rfl | rfl) | rfl <;> simp [coords, Pt.env]

theorem mem_rect {ds : Option (List ℕ)} (h : Straight ds) (a b c d : ℚ) (p : Pt 2) :
    p ∈ docSet 2 (.rectangle [a, c] [b, d] ds) ↔ ((a : ℝ) ≤ p 0 ∧ (c : ℝ) ≤ p 1) ∧ p 0 ≤ b ∧ p 1 ≤ d := by
  simp [docSet, coords_two h, Spec.reals]

theorem mem_openRect {ds : Option (List ℕ)} (h : Straight ds) (a b c d : ℚ) (p : Pt 2) :
    p ∈ docSet 2 (.openRectangle [a, c] [b, d] ds) ↔ ((a : ℝ) < p 0 ∧ (c : ℝ) < p 1) ∧ p 0 < b ∧ p 1 < d := by
  simp [docSet, coords_two h, Spec.reals]

theorem mem_disc {ds : Option (List ℕ)} (h : Straight ds) (x y r : ℚ) (hr : 0 ≤ r) (p : Pt 2) :
    p ∈ docSet 2 (.sphere [x, y] r ds) ↔ (p 0 - x) ^ 2 + (p 1 - y) ^ 2 ≤ (r : ℝ) ^ 2 := by
  have hr' : (0 : ℝ) ≤ r := by exact_mod_cast hr
  simp [docSet, coords_two h, Spec.reals, euclid, Real.sqrt_le_left hr']

theorem mem_openDisc {ds : Option (List ℕ)} (h : Straight ds) (x y r : ℚ) (hr : 0 ≤ r) (p : Pt 2) :
    p ∈ docSet 2 (.openSphere [x, y] r ds) ↔ (p 0 - x) ^ 2 + (p 1 - y) ^ 2 < (r : ℝ) ^ 2 := by
  have hr' : (0 : ℝ) ≤ r := by exact_mod_cast hr
  have h0 : 0 ≤ (p 0 - x) ^ 2 + (p 1 - y) ^ 2 := by positivity
  simp [docSet, coords_two h, Spec.reals, euclid, Real.sqrt_lt h0 hr']

theorem mem_ellipse (a b x y r : ℚ) (hr : 0 ≤ r) (p : Pt 2) :
    p ∈ docSet 2 (.ellipse [a, b] [x, y] r none) ↔ (a * p 0 - x) ^ 2 + (b * p 1 - y) ^ 2 ≤ (r : ℝ) ^ 2 := by
  have hr' : (0 : ℝ) ≤ r := by exact_mod_cast hr
  simp [docSet, coords_two (Or.inl (Or.inl rfl)), Spec.reals, euclid, Real.sqrt_le_left hr']

theorem mem_ellipse_sel (a b x y r : ℚ) (hr : 0 ≤ r) (p : Pt 2) :
    (p ∈ docSet 2 (.ellipse [a, b] [x, y] r (some [0, 1])) ↔ (a * p 0 - x) ^ 2 + (b * p 1 - y) ^ 2 ≤ (r : ℝ) ^ 2) ∧
    (p ∈ docSet 2 (.ellipse [b, a] [y, x] r (some [1, 0])) ↔ (a * p 0 - x) ^ 2 + (b * p 1 - y) ^ 2 ≤ (r : ℝ) ^ 2) := by
  have hr' : (0 : ℝ) ≤ r := by exact_mod_cast hr
  constructor
  · simp [docSet, coords, Pt.env, Spec.reals, euclid, Real.sqrt_le_left hr']
  · simp [docSet, coords, Pt.env, Spec.reals, euclid, Real.sqrt_le_left hr', add_comm]

theorem mem_torus {ds : Option (List ℕ)} (h : Straight ds) (x y ro ri : ℚ) (h0 : 0 ≤ ri) (hr : ri < ro) (p : Pt 2) :
    p ∈ docSet 2 (.torus [x, y] ro ri ds) ↔
      (ri : ℝ) ^ 2 ≤ (p 0 - x) ^ 2 + (p 1 - y) ^ 2 ∧ (p 0 - x) ^ 2 + (p 1 - y) ^ 2 ≤ (ro : ℝ) ^ 2 := by
  have h1 : (0 : ℝ) ≤ ri := by exact_mod_cast h0
  have h2 : (0 : ℝ) ≤ ro := by exact_mod_cast h0.trans hr.le
  have h3 : 0 ≤ (p 0 - x) ^ 2 + (p 1 - y) ^ 2 := by positivity
  simp [docSet, coords_two h, Spec.reals, euclid, Real.sqrt_le_left h2, Real.le_sqrt h1 h3]

/-! ### polygons -/

theorem onPath_corner : ∀ (path : List (ℝ × ℝ)) (v : ℝ × ℝ), 2 ≤ path.length → v ∈ path → onPath path ![v.1, v.2]
  | [], _, h, _ => by simp at h
  | [_], _, h, _ => by simp at h
  | u :: w :: rest, v, _, hv => by
    rcases List.mem_cons.1 hv with rfl | hv
    · exact Or.inl (left_mem_segment ℝ _ _)
    · rcases List.mem_cons.1 hv with rfl | hv'
      · exact Or.inl (right_mem_segment ℝ _ _)
      · cases rest with
        | nil => simp at hv'
        | cons z rest => exact Or.inr (onPath_corner (w :: z :: rest) v (by simp) hv)

theorem seg_h {a b y : ℝ} {q : ℝ × ℝ} : q ∈ _root_.segment ℝ (a, y) (b, y) ↔ q.1 ∈ Set.uIcc a b ∧ q.2 = y := by
  rw [← Prod.image_mk_segment_left, segment_eq_uIcc]
  constructor
  · rintro ⟨x, hx, rfl⟩; exact ⟨hx, rfl⟩
  · rintro ⟨h1, h2⟩; exact ⟨q.1, h1, by rw [← h2]⟩

theorem seg_v {a b x : ℝ} {q : ℝ × ℝ} : q ∈ _root_.segment ℝ (x, a) (x, b) ↔ q.2 ∈ Set.uIcc a b ∧ q.1 = x := by
  rw [← Prod.image_mk_segment_right, segment_eq_uIcc]
  constructor
  · rintro ⟨x, hx, rfl⟩; exact ⟨hx, rfl⟩
  · rintro ⟨h1, h2⟩; exact ⟨q.2, h1, by rw [← h2]⟩

/-- The line around a box: its four edges. -/
theorem onPath_box (a b c d : ℚ) (h1 : a ≤ b) (h2 : c ≤ d) (q : Pt 2) : onPath (Curve.box a c (b - a) (d - c)).path q ↔
    (((a : ℝ) ≤ q 0 ∧ (c : ℝ) ≤ q 1) ∧ q 0 ≤ b ∧ q 1 ≤ d) ∧ ¬ (((a : ℝ) < q 0 ∧ (c : ℝ) < q 1) ∧ q 0 < b ∧ q 1 < d) := by
  have h1' : (a : ℝ) ≤ b := by exact_mod_cast h1
  have h2' : (c : ℝ) ≤ d := by exact_mod_cast h2
  simp only [Curve.path, onPath, Rat.cast_sub, add_sub_cancel, seg_h, seg_v, Set.uIcc_of_le h1', Set.uIcc_of_ge h1', Set.uIcc_of_le h2', Set.uIcc_of_ge h2',
    Set.mem_Icc, or_false]
  constructor
  · rintro (⟨⟨_, _⟩, h⟩ | ⟨⟨_, _⟩, h⟩ | ⟨⟨_, _⟩, h⟩ | ⟨⟨_, _⟩, h⟩) <;> rw [h] <;>
      refine ⟨⟨⟨?_, ?_⟩, ?_, ?_⟩, ?_⟩ <;> first | assumption | exact le_refl _ | (rintro ⟨⟨_, _⟩, _, _⟩; linarith)
  · rintro ⟨⟨⟨p1, p2⟩, p3, p4⟩, hn⟩
    by_cases e1 : q 1 = c
    · exact Or.inl ⟨⟨p1, p3⟩, e1⟩
    by_cases e2 : q 0 = b
    · exact Or.inr (Or.inl ⟨⟨p2, p4⟩, e2⟩)
    by_cases e3 : q 1 = d
    · exact Or.inr (Or.inr (Or.inl ⟨⟨p1, p3⟩, e3⟩))
    by_cases e4 : q 0 = a
    · exact Or.inr (Or.inr (Or.inr ⟨⟨p2, p4⟩, e4⟩))
    exact absurd ⟨⟨lt_of_le_of_ne p1 (Ne.symm e4), lt_of_le_of_ne p2 (Ne.symm e1)⟩, lt_of_le_of_ne p3 e2, lt_of_le_of_ne p4 e3⟩ hn

/-! ### frontiers -/

theorem isClosed_rect (a b c d : ℚ) : IsClosed {p : Pt 2 | ((a : ℝ) ≤ p 0 ∧ (c : ℝ) ≤ p 1) ∧ p 0 ≤ b ∧ p 1 ≤ d} := by
  exact ((isClosed_le continuous_const (continuous_apply 0)).inter (isClosed_le continuous_const (continuous_apply 1))).inter
    ((isClosed_le (continuous_apply 0) continuous_const).inter (isClosed_le (continuous_apply 1) continuous_const))

theorem isOpen_rect (a b c d : ℚ) : IsOpen {p : Pt 2 | ((a : ℝ) < p 0 ∧ (c : ℝ) < p 1) ∧ p 0 < b ∧ p 1 < d} := by
  exact ((isOpen_lt continuous_const (continuous_apply 0)).inter (isOpen_lt continuous_const (continuous_apply 1))).inter
    ((isOpen_lt (continuous_apply 0) continuous_const).inter (isOpen_lt (continuous_apply 1) continuous_const))

theorem rect_sub (a b c d : ℚ) : {p : Pt 2 | ((a : ℝ) < p 0 ∧ (c : ℝ) < p 1) ∧ p 0 < b ∧ p 1 < d} ⊆
    {p : Pt 2 | ((a : ℝ) ≤ p 0 ∧ (c : ℝ) ≤ p 1) ∧ p 0 ≤ b ∧ p 1 ≤ d} :=
  fun _ hq => ⟨⟨hq.1.1.le, hq.1.2.le⟩, hq.2.1.le, hq.2.2.le⟩

theorem frontier_between {S C O : Set (Pt 2)} (hC : IsClosed C) (hO : IsOpen O) (h1 : O ⊆ S) (h2 : S ⊆ C) {p : Pt 2} (hp : p ∈ frontier S) : p ∈ C ∧ p ∉ O :=
  ⟨hC.closure_subset_iff.2 h2 hp.1, fun h => hp.2 (interior_maximal h1 hO h)⟩

/-- Angle of a point on a circle. -/
theorem exists_angle {u v r : ℝ} (hr : 0 ≤ r) (h : u ^ 2 + v ^ 2 = r ^ 2) : ∃ θ, 0 ≤ θ ∧ θ < 2 * Real.pi ∧ u = r * Real.cos θ ∧ v = r * Real.sin θ := by
  have hz : ‖(⟨u, v⟩ : ℂ)‖ = r := by
    rw [Complex.norm_def, Complex.normSq_mk, ← sq, ← sq, h, Real.sqrt_sq hr]
  have h1 := Complex.norm_mul_cos_arg (⟨u, v⟩ : ℂ)
  have h2 := Complex.norm_mul_sin_arg (⟨u, v⟩ : ℂ)
  rw [hz] at h1 h2
  have hb := Complex.neg_pi_lt_arg (⟨u, v⟩ : ℂ)
  have ht := Complex.arg_le_pi (⟨u, v⟩ : ℂ)
  have hpi := Real.pi_pos
  by_cases hneg : Complex.arg ⟨u, v⟩ < 0
  · exact ⟨Complex.arg ⟨u, v⟩ + 2 * Real.pi, by linarith, by linarith, by rw [Real.cos_add_two_pi]; exact h1.symm, by rw [Real.sin_add_two_pi]; exact h2.symm⟩
  · exact ⟨Complex.arg ⟨u, v⟩, not_lt.1 hneg, by linarith, h1.symm, h2.symm⟩

/-- Every point of the ellipse is near a corner of the polygon. -/
theorem near_corner (cx cy rx ry : ℚ) (θ : ℝ) (h0 : 0 ≤ θ) (h1 : θ < 2 * Real.pi) :
    ∃ q : Pt 2, onPath (Curve.arc cx cy rx ry false).path q ∧ |(cx + rx * Real.cos θ) - q 0| ≤ |(rx : ℝ)| * (Real.pi / 49) ∧
      |(cy + ry * Real.sin θ) - q 1| ≤ |(ry : ℝ)| * (Real.pi / 49) := by
  have hpi := Real.pi_pos
  set δ : ℝ := 2 * Real.pi / 49 with hδ
  have hδ0 : 0 < δ := by positivity
  obtain ⟨k, hk, hkd⟩ : ∃ k : ℕ, k < 50 ∧ |θ - k * δ| ≤ Real.pi / 49 := by
    have hr := abs_sub_round (θ / δ)
    have hx0 : 0 ≤ θ / δ := div_nonneg h0 hδ0.le
    have hx1 : θ / δ < 49 := by
      rw [div_lt_iff₀ hδ0, hδ]; linarith
    have hr0 : 0 ≤ round (θ / δ) := by
      have := abs_le.1 hr
      have : (-1 : ℝ) < round (θ / δ) := by linarith
      have : (-1 : ℤ) < round (θ / δ) := by exact_mod_cast this
      omega
    obtain ⟨k, hk⟩ := Int.eq_ofNat_of_zero_le hr0
    have hkr : ((round (θ / δ) : ℤ) : ℝ) = (k : ℝ) := by rw [hk]; simp
    rw [hkr] at hr
    refine ⟨k, ?_, ?_⟩
    · have := abs_le.1 hr
      have : (k : ℝ) < 50 := by linarith
      exact_mod_cast this
    · have e : θ - k * δ = (θ / δ - k) * δ := by field_simp
      rw [e, abs_mul, abs_of_pos hδ0]
      calc |θ / δ - k| * δ ≤ 1 / 2 * δ := mul_le_mul_of_nonneg_right hr hδ0.le
        _ = Real.pi / 49 := by rw [hδ]; ring
  refine ⟨![cx + rx * Real.cos (k * δ), cy + ry * Real.sin (k * δ)], ?_, ?_, ?_⟩
  · refine onPath_corner _ (cx + rx * Real.cos (k * δ), cy + ry * Real.sin (k * δ)) (by simp [Curve.path]) ?_
    simp only [Curve.path, List.mem_map, List.mem_range]
    exact ⟨k, hk, by simp [hδ]⟩
  · have : (cx + rx * Real.cos θ) - (![cx + rx * Real.cos (k * δ), cy + ry * Real.sin (k * δ)] : Pt 2) 0 = (rx : ℝ) * (Real.cos θ - Real.cos (k * δ)) := by
      simp; ring
    rw [this, abs_mul]
    exact mul_le_mul_of_nonneg_left ((Real.abs_cos_sub_cos_le _ _).trans hkd) (abs_nonneg _)
  · have : (cy + ry * Real.sin θ) - (![cx + rx * Real.cos (k * δ), cy + ry * Real.sin (k * δ)] : Pt 2) 1 = (ry : ℝ) * (Real.sin θ - Real.sin (k * δ)) := by
      simp; ring
    rw [this, abs_mul]
    exact mul_le_mul_of_nonneg_left ((Real.abs_sin_sub_sin_le _ _).trans hkd) (abs_nonneg _)

theorem shown_circle {col leg : String} {x y r : ℚ} (hr : 0 ≤ r) {p : Pt 2} (h : (p 0 - x) ^ 2 + (p 1 - y) ^ 2 = (r : ℝ) ^ 2) :
    Shown ⟨.arc x y r r false, col, leg⟩ p := by
  obtain ⟨θ, h0, h1, hu, hv⟩ := exists_angle (by exact_mod_cast hr : (0 : ℝ) ≤ r) h
  obtain ⟨q, hq, h2, h3⟩ := near_corner x y r r θ h0 h1
  refine ⟨q, hq, ?_, ?_⟩
  · rw [show p 0 = x + r * Real.cos θ by linarith]; exact h2
  · rw [show p 1 = y + r * Real.sin θ by linarith]; exact h3

theorem two_of_length {l : List ℚ} (h : l.length = 2) : ∃ a b, l = [a, b] := by
  match l, h with
  | [a, b], _ => exact ⟨a, b, rfl⟩

/-- What `plot` does for a set expression that can be drawn: with a known label it succeeds and shows every boundary point in the colour of the label; with another label it
ends with an AttributeError before the first curve. -/
theorem plotCurves_outlined (l : String) : ∀ (S : PySet), Outlined S →
    (∀ cl, plotColour l = .ok cl → (S.plotCurves l).2 = .ok () ∧ (∀ d ∈ (S.plotCurves l).1, d.colour = cl.1 ∧ d.legend = cl.2) ∧
      ∀ p ∈ frontier (docSet 2 S), ∃ d ∈ (S.plotCurves l).1, Shown d p) ∧
    (∀ e, plotColour l = .error e → S.plotCurves l = ([], .error e))
  | .rectangle lb ub ds, h => by
    obtain ⟨h1, h2, h3⟩ := h
    obtain ⟨a, c, rfl⟩ := two_of_length h1
    obtain ⟨b, d, rfl⟩ := two_of_length h2
    constructor
    · intro cl hcl
      have e : (PySet.rectangle [a, c] [b, d] ds).plotCurves l = ([⟨.box a c (b - a) (d - c), cl.1, cl.2⟩], .ok ()) := by
        simp [PySet.plotCurves, rectCurves, drawAll, at?, hcl, bind, Except.bind, pure, Except.pure]
      rw [e]
      refine ⟨rfl, by simp, fun p hp => ⟨_, List.mem_singleton.2 rfl, p, ?_, by simp [tol], by simp [tol]⟩⟩
      have hset : docSet 2 (.rectangle [a, c] [b, d] ds) = {p : Pt 2 | ((a : ℝ) ≤ p 0 ∧ (c : ℝ) ≤ p 1) ∧ p 0 ≤ b ∧ p 1 ≤ d} :=
        Set.ext fun q => mem_rect h3 a b c d q
      rw [hset] at hp
      obtain ⟨hC, hO⟩ := frontier_between (isClosed_rect a b c d) (isOpen_rect a b c d)
        (rect_sub a b c d) subset_rfl hp
      refine (onPath_box a b c d ?_ ?_ p).2 ⟨hC, hO⟩
      · exact_mod_cast hC.1.1.trans hC.2.1
      · exact_mod_cast hC.1.2.trans hC.2.2
    · intro e he
      simp [PySet.plotCurves, rectCurves, drawAll, at?, he, bind, Except.bind]
  | .openRectangle lb ub ds, h => by
    obtain ⟨h1, h2, h3⟩ := h
    obtain ⟨a, c, rfl⟩ := two_of_length h1
    obtain ⟨b, d, rfl⟩ := two_of_length h2
    constructor
    · intro cl hcl
      have e : (PySet.openRectangle [a, c] [b, d] ds).plotCurves l = ([⟨.box a c (b - a) (d - c), cl.1, cl.2⟩], .ok ()) := by
        simp [PySet.plotCurves, rectCurves, drawAll, at?, hcl, bind, Except.bind, pure, Except.pure]
      rw [e]
      refine ⟨rfl, by simp, fun p hp => ⟨_, List.mem_singleton.2 rfl, p, ?_, by simp [tol], by simp [tol]⟩⟩
      have hset : docSet 2 (.openRectangle [a, c] [b, d] ds) = {p : Pt 2 | ((a : ℝ) < p 0 ∧ (c : ℝ) < p 1) ∧ p 0 < b ∧ p 1 < d} :=
        Set.ext fun q => mem_openRect h3 a b c d q
      rw [hset] at hp
      obtain ⟨hC, hO⟩ := frontier_between (isClosed_rect a b c d) (isOpen_rect a b c d)
        subset_rfl (rect_sub a b c d) hp
      refine (onPath_box a b c d ?_ ?_ p).2 ⟨hC, hO⟩
      · exact_mod_cast hC.1.1.trans hC.2.1
      · exact_mod_cast hC.1.2.trans hC.2.2
    · intro e he
      simp [PySet.plotCurves, rectCurves, drawAll, at?, he, bind, Except.bind]
  | .sphere c r ds, h => by
    obtain ⟨h1, h2, h3⟩ := h
    obtain ⟨x, y, rfl⟩ := two_of_length h1
    constructor
    · intro cl hcl
      have e : (PySet.sphere [x, y] r ds).plotCurves l = ([⟨.arc x y r r false, cl.1, cl.2⟩], .ok ()) := by
        simp [PySet.plotCurves, circleCurves, drawAll, at?, hcl, bind, Except.bind, pure, Except.pure]
      rw [e]
      refine ⟨rfl, by simp, fun p hp => ⟨_, List.mem_singleton.2 rfl, shown_circle h3 ?_⟩⟩
      have hset : docSet 2 (.sphere [x, y] r ds) = {p : Pt 2 | (p 0 - x) ^ 2 + (p 1 - y) ^ 2 ≤ (r : ℝ) ^ 2} :=
        Set.ext fun q => mem_disc h2 x y r h3 q
      rw [hset] at hp
      exact frontier_le_subset_eq (by fun_prop) (by fun_prop) hp
    · intro e he
      simp [PySet.plotCurves, circleCurves, drawAll, he, bind, Except.bind]
  | .openSphere c r ds, h => by
    obtain ⟨h1, h2, h3⟩ := h
    obtain ⟨x, y, rfl⟩ := two_of_length h1
    constructor
    · intro cl hcl
      have e : (PySet.openSphere [x, y] r ds).plotCurves l = ([⟨.arc x y r r false, cl.1, cl.2⟩], .ok ()) := by
        simp [PySet.plotCurves, circleCurves, drawAll, at?, hcl, bind, Except.bind, pure, Except.pure]
      rw [e]
      refine ⟨rfl, by simp, fun p hp => ⟨_, List.mem_singleton.2 rfl, shown_circle h3 ?_⟩⟩
      have hset : docSet 2 (.openSphere [x, y] r ds) = {p : Pt 2 | (p 0 - x) ^ 2 + (p 1 - y) ^ 2 < (r : ℝ) ^ 2} :=
        Set.ext fun q => mem_openDisc h2 x y r h3 q
      rw [hset] at hp
      exact frontier_lt_subset_eq (by fun_prop) (by fun_prop) hp
    · intro e he
      simp [PySet.plotCurves, circleCurves, drawAll, he, bind, Except.bind]
  | .ellipse a c r ds, h => by
    obtain ⟨h1, h2, hds, h3, h4⟩ := h
    -- the coefficients and the centre in the order of the coordinates
    obtain ⟨u, v, x, y, hu, hv, hset, hcol, herr⟩ : ∃ u v x y : ℚ, u ≠ 0 ∧ v ≠ 0 ∧
        docSet 2 (.ellipse a c r ds) = {p : Pt 2 | (u * p 0 - x) ^ 2 + (v * p 1 - y) ^ 2 ≤ (r : ℝ) ^ 2} ∧
        (∀ cl, plotColour l = .ok cl →
          (PySet.ellipse a c r ds).plotCurves l = ([⟨.arc (x / u) (y / v) (r / u) (r / v) false, cl.1, cl.2⟩], .ok ())) ∧
        ∀ e, plotColour l = .error e → (PySet.ellipse a c r ds).plotCurves l = ([], .error e) := by
      obtain ⟨u, v, rfl⟩ := two_of_length h1
      obtain ⟨x, y, rfl⟩ := two_of_length h2
      have hu : u ≠ 0 := h4 u (by simp)
      have hv : v ≠ 0 := h4 v (by simp)
      rcases hds with rfl | rfl | rfl
      · refine ⟨u, v, x, y, hu, hv, Set.ext fun q => mem_ellipse u v x y r h3 q, fun cl hcl => ?_, fun e he => ?_⟩
        · simp [PySet.plotCurves, ellipseCurves, ellipseArc, drawAll, at?, hcl, hu, hv, bind, Except.bind, pure, Except.pure]
        · simp [PySet.plotCurves, ellipseCurves, ellipseArc, drawAll, at?, he, bind, Except.bind]
      · refine ⟨u, v, x, y, hu, hv, Set.ext fun q => (mem_ellipse_sel u v x y r h3 q).1, fun cl hcl => ?_, fun e he => ?_⟩
        · simp [PySet.plotCurves, ellipseCurves, ellipseArc, drawAll, at?, hcl, hu, hv, bind, Except.bind, pure, Except.pure]
        · simp [PySet.plotCurves, ellipseCurves, ellipseArc, drawAll, at?, he, bind, Except.bind]
      · refine ⟨v, u, y, x, hv, hu, Set.ext fun q => (mem_ellipse_sel v u y x r h3 q).2, fun cl hcl => ?_, fun e he => ?_⟩
        · simp [PySet.plotCurves, ellipseCurves, ellipseArc, drawAll, at?, hcl, hu, hv, bind, Except.bind, pure, Except.pure]
        · simp [PySet.plotCurves, ellipseCurves, ellipseArc, drawAll, at?, he, bind, Except.bind]
    refine ⟨fun cl hcl => ?_, herr⟩
    rw [hcol cl hcl]
    refine ⟨rfl, by simp, fun p hp => ⟨_, List.mem_singleton.2 rfl, ?_⟩⟩
    rw [hset] at hp
    have heq := frontier_le_subset_eq (by fun_prop) (by fun_prop) hp
    obtain ⟨θ, t0, t1, eu, ev⟩ := exists_angle (by exact_mod_cast h3 : (0 : ℝ) ≤ r) heq
    obtain ⟨q, hq, b1, b2⟩ := near_corner (x / u) (y / v) (r / u) (r / v) θ t0 t1
    have hu' : (u : ℝ) ≠ 0 := by exact_mod_cast hu
    have hv' : (v : ℝ) ≠ 0 := by exact_mod_cast hv
    refine ⟨q, hq, ?_, ?_⟩
    · rw [show p 0 = ((x / u : ℚ) : ℝ) + ((r / u : ℚ) : ℝ) * Real.cos θ by push_cast; field_simp; linarith]; exact b1
    · rw [show p 1 = ((y / v : ℚ) : ℝ) + ((r / v : ℚ) : ℝ) * Real.sin θ by push_cast; field_simp; linarith]; exact b2
  | .torus c ro ri ds, h => by
    obtain ⟨h1, h2, h3, h4⟩ := h
    obtain ⟨x, y, rfl⟩ := two_of_length h1
    constructor
    · intro cl hcl
      have e : (PySet.torus [x, y] ro ri ds).plotCurves l = ([⟨.arc x y ri ri false, cl.1, cl.2⟩, ⟨.arc x y ro ro false, cl.1, cl.2⟩], .ok ()) := by
        simp [PySet.plotCurves, torusCurves, circleCurves, drawAll, at?, hcl, bind, Except.bind, pure, Except.pure]
      rw [e]
      refine ⟨rfl, by simp, fun p hp => ?_⟩
      have hset : docSet 2 (.torus [x, y] ro ri ds) = {p : Pt 2 | (ri : ℝ) ^ 2 ≤ (p 0 - x) ^ 2 + (p 1 - y) ^ 2} ∩
          {p : Pt 2 | (p 0 - x) ^ 2 + (p 1 - y) ^ 2 ≤ (ro : ℝ) ^ 2} := Set.ext fun q => mem_torus h2 x y ro ri h3 h4 q
      rw [hset] at hp
      rcases frontier_inter_subset _ _ hp with ⟨hp, -⟩ | ⟨-, hp⟩
      · have heq := frontier_le_subset_eq (by fun_prop) (by fun_prop) hp
        exact ⟨⟨.arc x y ri ri false, cl.1, cl.2⟩, by simp, shown_circle h3 heq.symm⟩
      · have heq := frontier_le_subset_eq (by fun_prop) (by fun_prop) hp
        exact ⟨⟨.arc x y ro ro false, cl.1, cl.2⟩, by simp, shown_circle (h3.trans h4.le) heq⟩
    · intro e he
      simp [PySet.plotCurves, torusCurves, circleCurves, drawAll, he, bind, Except.bind]
  | .union S T, h => by
    have hS := plotCurves_outlined l S h.1
    have hT := plotCurves_outlined l T h.2
    constructor
    · intro cl hcl
      obtain ⟨a1, a2, a3⟩ := hS.1 cl hcl
      obtain ⟨b1, b2, b3⟩ := hT.1 cl hcl
      have e : (PySet.union S T).plotCurves l = ((S.plotCurves l).1 ++ (T.plotCurves l).1, (T.plotCurves l).2) := by
        rw [PySet.plotCurves]
        generalize S.plotCurves l = r at a1 ⊢
        obtain ⟨cs, r⟩ := r
        simp only at a1
        subst a1
        rfl
      rw [e]
      refine ⟨b1, fun d hd => ?_, fun p hp => ?_⟩
      · rcases List.mem_append.1 hd with hd | hd
        · exact a2 d hd
        · exact b2 d hd
      · rcases frontier_union_subset _ _ hp with ⟨hp, -⟩ | ⟨-, hp⟩
        · obtain ⟨d, hd, hs⟩ := a3 p hp
          exact ⟨d, List.mem_append_left _ hd, hs⟩
        · obtain ⟨d, hd, hs⟩ := b3 p hp
          exact ⟨d, List.mem_append_right _ hd, hs⟩
    · intro e he
      rw [PySet.plotCurves, hS.2 e he]
  | .setMinus S T, h => by
    have hS := plotCurves_outlined l S h.1
    have hT := plotCurves_outlined l T h.2
    constructor
    · intro cl hcl
      obtain ⟨a1, a2, a3⟩ := hS.1 cl hcl
      obtain ⟨b1, b2, b3⟩ := hT.1 cl hcl
      have e : (PySet.setMinus S T).plotCurves l = ((S.plotCurves l).1 ++ (T.plotCurves l).1, (T.plotCurves l).2) := by
        rw [PySet.plotCurves]
        generalize S.plotCurves l = r at a1 ⊢
        obtain ⟨cs, r⟩ := r
        simp only at a1
        subst a1
        rfl
      rw [e]
      refine ⟨b1, fun d hd => ?_, fun p hp => ?_⟩
      · rcases List.mem_append.1 hd with hd | hd
        · exact a2 d hd
        · exact b2 d hd
      · have hp' : p ∈ frontier (docSet 2 S ∩ (docSet 2 T)ᶜ) := hp
        rcases frontier_inter_subset _ _ hp' with ⟨hp, -⟩ | ⟨-, hp⟩
        · obtain ⟨d, hd, hs⟩ := a3 p hp
          exact ⟨d, List.mem_append_left _ hd, hs⟩
        · rw [frontier_compl] at hp
          obtain ⟨d, hd, hs⟩ := b3 p hp
          exact ⟨d, List.mem_append_right _ hd, hs⟩
    · intro e he
      rw [PySet.plotCurves, hS.2 e he]
  | .compl S, h => by
    have hS := plotCurves_outlined l S h
    refine ⟨fun cl hcl => ?_, fun e he => by rw [PySet.plotCurves, hS.2 e he]⟩
    obtain ⟨a1, a2, a3⟩ := hS.1 cl hcl
    rw [PySet.plotCurves]
    refine ⟨a1, a2, fun p hp => a3 p ?_⟩
    have hp' : p ∈ frontier (docSet 2 S)ᶜ := hp
    rwa [frontier_compl] at hp'
  | .posSphere _ _, h | .bean _ _, h | .empty, h | .reals _, h | .inter _ _, h => by exact absurd h id

theorem plotColour_error {l : String} {e : Err} (h : plotColour l = .error e) : e = .attributeError := by
  unfold plotColour at h
  split_ifs at h
  exact (Except.error.inj h).symm

/-- **C81.** For every dictionary of planar sets built from boxes, discs, ellipses and rings by union, difference and complement, drawing the sets succeeds; every boundary
point of every set with a known label is shown by a curve in the colour, and with the legend entry, of that label (exactly for boxes, within `π/49` of the radius for
circles); and nothing is drawn for other labels. -/
theorem C81_boundary_shown : ∀ (doms : Dict String PySet), (∀ e ∈ doms, Outlined e.2) →
    (plotDomains doms).2 = .ok () ∧
    (∀ e ∈ doms, ∀ cl, plotColour e.1 = .ok cl → ∀ p ∈ frontier (docSet 2 e.2), ∃ d ∈ (plotDomains doms).1, d.colour = cl.1 ∧ d.legend = cl.2 ∧ Shown d p) ∧
    ∀ d ∈ (plotDomains doms).1, ∃ e ∈ doms, plotColour e.1 = .ok (d.colour, d.legend) ∧ d ∈ (e.2.plotCurves e.1).1
  | [], _ => ⟨rfl, by simp, by simp [plotDomains]⟩
  | (l, S) :: rest, h => by
    obtain ⟨r1, r2, r3⟩ := C81_boundary_shown rest (fun e he => h e (List.mem_cons_of_mem _ he))
    have hS := plotCurves_outlined l S (h (l, S) List.mem_cons_self)
    cases hc : plotColour l with
    | error e =>
      have he := plotColour_error hc
      subst he
      have e1 : plotDomains ((l, S) :: rest) = plotDomains rest := by
        simp only [plotDomains, hS.2 _ hc, List.nil_append]
      rw [e1]
      refine ⟨r1, fun e he cl hcl p hp => ?_, fun d hd => ?_⟩
      · rcases List.mem_cons.1 he with rfl | he
        · rw [hc] at hcl; cases hcl
        · exact r2 e he cl hcl p hp
      · obtain ⟨e, he, h1, h2⟩ := r3 d hd
        exact ⟨e, List.mem_cons_of_mem _ he, h1, h2⟩
    | ok cl0 =>
      obtain ⟨a1, a2, a3⟩ := hS.1 cl0 hc
      have e1 : plotDomains ((l, S) :: rest) = ((S.plotCurves l).1 ++ (plotDomains rest).1, (plotDomains rest).2) := by
        simp only [plotDomains]
        generalize S.plotCurves l = r at a1 ⊢
        obtain ⟨cs, r⟩ := r
        simp only at a1
        subst a1
        rfl
      rw [e1]
      refine ⟨r1, fun e he cl hcl p hp => ?_, fun d hd => ?_⟩
      · rcases List.mem_cons.1 he with rfl | he
        · rw [hc] at hcl
          cases hcl
          obtain ⟨d, hd, hs⟩ := a3 p hp
          exact ⟨d, List.mem_append_left _ hd, (a2 d hd).1, (a2 d hd).2, hs⟩
        · obtain ⟨d, hd, hs⟩ := r2 e he cl hcl p hp
          exact ⟨d, List.mem_append_right _ hd, hs⟩
      · rcases List.mem_append.1 hd with hd | hd
        · refine ⟨(l, S), List.mem_cons_self, ?_, hd⟩
          rw [(a2 d hd).1, (a2 d hd).2]; exact hc
        · obtain ⟨e, he, h1, h2⟩ := r3 d hd
          exact ⟨e, List.mem_cons_of_mem _ he, h1, h2⟩

/-- A dictionary with several shapes. -/
example : ∀ e ∈ ([(XD, .setMinus (.rectangle [-5, -5] [5, 5] none) (.sphere [0, 0] (1/10) none)), (XU, .union (.torus [0, 0] 2 1 none) (.compl (.openSphere [1, 1] 4 none))),
    (XI, .ellipse [1, 2] [0, 1] 3 (some [1, 0])), (XGB, .sphere [0, 0] 1 (some [0, 1]))] : Dict String PySet), Outlined e.2 := by
  intro e he
  simp only [List.mem_cons, List.not_mem_nil, or_false] at he
  rcases he with rfl | rfl | rfl | rfl <;> norm_num [Outlined, Straight, noSel]

/-! ### the drawn corners are boundary points -/

namespace Spec

/-- A single shape with a nonempty interior (and, for a ring, a hole). -/
def Proper : PySet → Prop
  | .rectangle lb ub ds | .openRectangle lb ub ds => Straight ds ∧ ∃ a b c d, lb = [a, c] ∧ ub = [b, d] ∧ a < b ∧ c < d
  | .sphere c r ds | .openSphere c r ds => c.length = 2 ∧ Straight ds ∧ 0 < r
  | .ellipse a c r ds => a.length = 2 ∧ c.length = 2 ∧ ds = none ∧ 0 < r ∧ ∀ x ∈ a, x ≠ 0
  | .torus c ro ri ds => c.length = 2 ∧ Straight ds ∧ 0 < ri ∧ ri < ro
  | _ => False

end Spec

theorem frontier_rect (a b c d : ℚ) :
    frontier {p : Pt 2 | ((a : ℝ) ≤ p 0 ∧ (c : ℝ) ≤ p 1) ∧ p 0 ≤ b ∧ p 1 ≤ d} =
      {p : Pt 2 | (((a : ℝ) ≤ p 0 ∧ (c : ℝ) ≤ p 1) ∧ p 0 ≤ b ∧ p 1 ≤ d) ∧ ¬ (((a : ℝ) < p 0 ∧ (c : ℝ) < p 1) ∧ p 0 < b ∧ p 1 < d)} := by
  have e : {p : Pt 2 | ((a : ℝ) ≤ p 0 ∧ (c : ℝ) ≤ p 1) ∧ p 0 ≤ b ∧ p 1 ≤ d} =
      Set.pi Set.univ (fun i : Fin 2 => Set.Icc ((![(a : ℝ), (c : ℝ)] : Fin 2 → ℝ) i) ((![(b : ℝ), (d : ℝ)] : Fin 2 → ℝ) i)) := by
    ext p
    simp only [Set.mem_ofPred_eq, Set.mem_pi, Set.mem_univ, true_implies, Fin.forall_fin_two, Set.mem_Icc, Matrix.cons_val_zero, Matrix.cons_val_one]
    tauto
  rw [(isClosed_rect a b c d).frontier_eq, e, interior_pi_set Set.finite_univ]
  ext p
  simp only [interior_Icc, Set.mem_diff, Set.mem_ofPred_eq, Set.mem_pi, Set.mem_univ, true_implies, Fin.forall_fin_two, Set.mem_Icc, Set.mem_Ioo,
    Matrix.cons_val_zero, Matrix.cons_val_one]
  tauto

theorem frontier_openRect (a b c d : ℚ) (h1 : a < b) (h2 : c < d) :
    frontier {p : Pt 2 | ((a : ℝ) < p 0 ∧ (c : ℝ) < p 1) ∧ p 0 < b ∧ p 1 < d} =
      {p : Pt 2 | (((a : ℝ) ≤ p 0 ∧ (c : ℝ) ≤ p 1) ∧ p 0 ≤ b ∧ p 1 ≤ d) ∧ ¬ (((a : ℝ) < p 0 ∧ (c : ℝ) < p 1) ∧ p 0 < b ∧ p 1 < d)} := by
  have h1' : (a : ℝ) ≠ b := by exact_mod_cast h1.ne
  have h2' : (c : ℝ) ≠ d := by exact_mod_cast h2.ne
  have e : {p : Pt 2 | ((a : ℝ) < p 0 ∧ (c : ℝ) < p 1) ∧ p 0 < b ∧ p 1 < d} =
      Set.pi Set.univ (fun i : Fin 2 => Set.Ioo ((![(a : ℝ), (c : ℝ)] : Fin 2 → ℝ) i) ((![(b : ℝ), (d : ℝ)] : Fin 2 → ℝ) i)) := by
    ext p
    simp only [Set.mem_ofPred_eq, Set.mem_pi, Set.mem_univ, true_implies, Fin.forall_fin_two, Set.mem_Ioo, Matrix.cons_val_zero, Matrix.cons_val_one]
    tauto
  rw [(isOpen_rect a b c d).frontier_eq, e, closure_pi_set]
  ext p
  simp only [Set.mem_diff, Set.mem_ofPred_eq, Set.mem_pi, Set.mem_univ, true_implies, Fin.forall_fin_two, Set.mem_Ioo,
    Matrix.cons_val_zero, Matrix.cons_val_one, closure_Ioo h1', closure_Ioo h2', Set.mem_Icc]
  tauto

/-- The quadratic form of an ellipse. -/
noncomputable def ellForm (u v x y : ℝ) (p : Pt 2) : ℝ := (u * p 0 - x) ^ 2 + (v * p 1 - y) ^ 2

theorem ellForm_continuous (u v x y : ℝ) : Continuous (ellForm u v x y) := by unfold ellForm; fun_prop

/-- The ray from the centre through a point. -/
noncomputable def ellRay (u v x y : ℝ) (q : Pt 2) (t : ℝ) : Pt 2 := ![q 0 + t * ((u * q 0 - x) / u), q 1 + t * ((v * q 1 - y) / v)]

theorem ellRay_form {u v : ℝ} (hu : u ≠ 0) (hv : v ≠ 0) (x y : ℝ) (q : Pt 2) (t : ℝ) :
    ellForm u v x y (ellRay u v x y q t) = (1 + t) ^ 2 * ellForm u v x y q := by
  have e0 : u * (q 0 + t * ((u * q 0 - x) / u)) - x = (1 + t) * (u * q 0 - x) := by field_simp; ring
  have e1 : v * (q 1 + t * ((v * q 1 - y) / v)) - y = (1 + t) * (v * q 1 - y) := by field_simp; ring
  simp only [ellForm, ellRay, Matrix.cons_val_zero, Matrix.cons_val_one, e0, e1]
  ring

theorem ellRay_continuous (u v x y : ℝ) (q : Pt 2) : Continuous (ellRay u v x y q) := by
  unfold ellRay
  refine continuous_pi fun i => ?_
  fin_cases i <;> simp <;> fun_prop

theorem ellRay_zero (u v x y : ℝ) (q : Pt 2) : ellRay u v x y q 0 = q := by
  funext i; fin_cases i <;> simp [ellRay]

theorem closure_ray {u v x y : ℝ} {q : Pt 2} {A : Set (Pt 2)} {I : Set ℝ} (h0 : (0 : ℝ) ∈ closure I) (h : ∀ t ∈ I, ellRay u v x y q t ∈ A) : q ∈ closure A := by
  have := image_closure_subset_closure_image (s := I) (ellRay_continuous u v x y q) ⟨0, h0, rfl⟩
  rw [ellRay_zero] at this
  refine closure_mono ?_ this
  rintro _ ⟨t, ht, rfl⟩
  exact h t ht

theorem zero_closure_pos : (0 : ℝ) ∈ closure (Set.Ioo (0 : ℝ) 1) := by rw [closure_Ioo (by norm_num)]; norm_num
theorem zero_closure_neg : (0 : ℝ) ∈ closure (Set.Ioo (-1 : ℝ) 0) := by rw [closure_Ioo (by norm_num)]; norm_num

theorem ray_out {u v x y R : ℝ} (hu : u ≠ 0) (hv : v ≠ 0) (hR : 0 < R) {q : Pt 2} (hq : ellForm u v x y q = R) : q ∈ closure {p | R < ellForm u v x y p} := by
  refine closure_ray (u := u) (v := v) (x := x) (y := y) zero_closure_pos fun t ht => ?_
  show R < ellForm u v x y (ellRay u v x y q t)
  rw [ellRay_form hu hv, hq]
  have : 1 < (1 + t) ^ 2 := by nlinarith [ht.1, ht.2]
  nlinarith

theorem ray_in {u v x y R : ℝ} (hu : u ≠ 0) (hv : v ≠ 0) (hR : 0 < R) {q : Pt 2} (hq : ellForm u v x y q = R) : q ∈ closure {p | ellForm u v x y p < R} := by
  refine closure_ray (u := u) (v := v) (x := x) (y := y) zero_closure_neg fun t ht => ?_
  show ellForm u v x y (ellRay u v x y q t) < R
  rw [ellRay_form hu hv, hq]
  have : (1 + t) ^ 2 < 1 := by nlinarith [ht.1, ht.2]
  nlinarith

theorem frontier_of {S : Set (Pt 2)} {q : Pt 2} (h1 : q ∈ closure S) (h2 : q ∈ closure Sᶜ) : q ∈ frontier S := by
  rw [frontier_eq_closure_inter_closure]; exact ⟨h1, h2⟩

/-- Corners of an ellipse polygon satisfy its equation. -/
theorem corner_form {u v x y r : ℚ} (hu : u ≠ 0) (hv : v ≠ 0) {w : ℝ × ℝ} (h : w ∈ (Curve.arc (x / u) (y / v) (r / u) (r / v) false).path) :
    ellForm u v x y ![w.1, w.2] = (r : ℝ) ^ 2 := by
  simp only [Curve.path, List.mem_map] at h
  obtain ⟨k, -, rfl⟩ := h
  have hu' : (u : ℝ) ≠ 0 := by exact_mod_cast hu
  have hv' : (v : ℝ) ≠ 0 := by exact_mod_cast hv
  generalize ((k : ℝ) * ((if false = true then Real.pi / 2 else 2 * Real.pi) / 49)) = θ
  have e0 : (u : ℝ) * (((x / u : ℚ) : ℝ) + ((r / u : ℚ) : ℝ) * Real.cos θ) - x = r * Real.cos θ := by push_cast; field_simp; ring
  have e1 : (v : ℝ) * (((y / v : ℚ) : ℝ) + ((r / v : ℚ) : ℝ) * Real.sin θ) - y = r * Real.sin θ := by push_cast; field_simp; ring
  simp only [ellForm, Matrix.cons_val_zero, Matrix.cons_val_one, e0, e1]
  have := Real.sin_sq_add_cos_sq θ
  nlinarith

theorem corner_circle {x y r : ℚ} {w : ℝ × ℝ} (h : w ∈ (Curve.arc x y r r false).path) : ellForm 1 1 x y ![w.1, w.2] = (r : ℝ) ^ 2 := by
  have := corner_form (u := 1) (v := 1) (x := x) (y := y) (r := r) one_ne_zero one_ne_zero (w := w) (by simpa using h)
  simpa using this

/-- **C81 (nothing else).** Conversely, for a single shape every corner of what is drawn is a boundary point of the set; a box is drawn exactly. -/
theorem C81_corners_on_boundary (l : String) (S : PySet) (hS : Proper S) :
    (∀ d ∈ (S.plotCurves l).1, ∀ w ∈ d.curve.path, (![w.1, w.2] : Pt 2) ∈ frontier (docSet 2 S)) ∧
    ∀ lb ub ds, S = .rectangle lb ub ds ∨ S = .openRectangle lb ub ds → ∀ d ∈ (S.plotCurves l).1, ∀ q, onPath d.curve.path q ↔ q ∈ frontier (docSet 2 S) := by
  have boxcase : ∀ (a b c d : ℚ) (T : PySet), a < b → c < d → T.plotCurves l = drawAll (rectCurves l [a, c] [b, d]) →
      frontier (docSet 2 T) = {p : Pt 2 | (((a : ℝ) ≤ p 0 ∧ (c : ℝ) ≤ p 1) ∧ p 0 ≤ b ∧ p 1 ≤ d) ∧ ¬ (((a : ℝ) < p 0 ∧ (c : ℝ) < p 1) ∧ p 0 < b ∧ p 1 < d)} →
      ∀ e ∈ (T.plotCurves l).1, (∀ q, onPath e.curve.path q ↔ q ∈ frontier (docSet 2 T)) ∧
        ∀ w ∈ e.curve.path, (![w.1, w.2] : Pt 2) ∈ frontier (docSet 2 T) := by
    intro a b c d T h1 h2 hT hf e he
    have hb : e.curve = .box a c (b - a) (d - c) := by
      rw [hT] at he
      cases hc : plotColour l with
      | ok cl =>
        simp [rectCurves, drawAll, at?, hc, bind, Except.bind, pure, Except.pure] at he
        rw [he]
      | error er => simp [rectCurves, drawAll, at?, hc, bind, Except.bind] at he
    have key : ∀ q, onPath e.curve.path q ↔ q ∈ frontier (docSet 2 T) := fun q => by
      rw [hb, onPath_box a b c d h1.le h2.le, hf]; rfl
    refine ⟨key, fun w hw => (key _).1 (onPath_corner _ w ?_ hw)⟩
    rw [hb]; simp [Curve.path]
  match S, hS with
  | .rectangle lb ub ds, ⟨h, a, b, c, d, hl, hu, h1, h2⟩ =>
    subst hl hu
    have := boxcase a b c d (.rectangle [a, c] [b, d] ds) h1 h2 rfl (by
      rw [← frontier_rect]; congr 1; exact Set.ext fun q => mem_rect h a b c d q)
    exact ⟨fun e he => (this e he).2, fun _ _ _ _ e he => (this e he).1⟩
  | .openRectangle lb ub ds, ⟨h, a, b, c, d, hl, hu, h1, h2⟩ =>
    subst hl hu
    have := boxcase a b c d (.openRectangle [a, c] [b, d] ds) h1 h2 rfl (by
      rw [← frontier_openRect a b c d h1 h2]; congr 1; exact Set.ext fun q => mem_openRect h a b c d q)
    exact ⟨fun e he => (this e he).2, fun _ _ _ _ e he => (this e he).1⟩
  | .sphere c r ds, ⟨h1, h2, h3⟩ =>
    obtain ⟨x, y, rfl⟩ := two_of_length h1
    refine ⟨fun e he w hw => ?_, by rintro lb ub ds (h | h) <;> cases h⟩
    have hR : (0 : ℝ) < (r : ℝ) ^ 2 := by have : (0 : ℝ) < r := by exact_mod_cast h3
                                          positivity
    have hb : e.curve = .arc x y r r false := by
      cases hc : plotColour l with
      | ok cl =>
        simp [PySet.plotCurves, circleCurves, drawAll, at?, hc, bind, Except.bind, pure, Except.pure] at he
        rw [he]
      | error er => simp [PySet.plotCurves, circleCurves, drawAll, hc, bind, Except.bind] at he
    rw [hb] at hw
    have hq := corner_circle hw
    have hset : docSet 2 (.sphere [x, y] r ds) = {p : Pt 2 | ellForm 1 1 x y p ≤ (r : ℝ) ^ 2} := Set.ext fun q => by
      rw [mem_disc h2 x y r h3.le]; simp [ellForm]
    rw [hset]
    refine frontier_of (subset_closure hq.le) (closure_mono ?_ (ray_out one_ne_zero one_ne_zero hR hq))
    intro p hp hp'; rw [Set.mem_ofPred_eq] at hp hp'; exact absurd hp' (not_le.2 hp)
  | .openSphere c r ds, ⟨h1, h2, h3⟩ =>
    obtain ⟨x, y, rfl⟩ := two_of_length h1
    refine ⟨fun e he w hw => ?_, by rintro lb ub ds (h | h) <;> cases h⟩
    have hR : (0 : ℝ) < (r : ℝ) ^ 2 := by have : (0 : ℝ) < r := by exact_mod_cast h3
                                          positivity
    have hb : e.curve = .arc x y r r false := by
      cases hc : plotColour l with
      | ok cl =>
        simp [PySet.plotCurves, circleCurves, drawAll, at?, hc, bind, Except.bind, pure, Except.pure] at he
        rw [he]
      | error er => simp [PySet.plotCurves, circleCurves, drawAll, hc, bind, Except.bind] at he
    rw [hb] at hw
    have hq := corner_circle hw
    have hset : docSet 2 (.openSphere [x, y] r ds) = {p : Pt 2 | ellForm 1 1 x y p < (r : ℝ) ^ 2} := Set.ext fun q => by
      rw [mem_openDisc h2 x y r h3.le]; simp [ellForm]
    rw [hset]
    refine frontier_of (ray_in one_ne_zero one_ne_zero hR hq) (subset_closure ?_)
    exact not_lt.2 hq.ge
  | .ellipse a c r ds, ⟨h1, h2, hds, h3, h4⟩ =>
    subst hds
    obtain ⟨u, v, rfl⟩ := two_of_length h1
    obtain ⟨x, y, rfl⟩ := two_of_length h2
    have hu : u ≠ 0 := h4 u (by simp)
    have hv : v ≠ 0 := h4 v (by simp)
    have hu' : (u : ℝ) ≠ 0 := by exact_mod_cast hu
    have hv' : (v : ℝ) ≠ 0 := by exact_mod_cast hv
    refine ⟨fun e he w hw => ?_, by rintro lb ub ds (h | h) <;> cases h⟩
    have hR : (0 : ℝ) < (r : ℝ) ^ 2 := by have : (0 : ℝ) < r := by exact_mod_cast h3
                                          positivity
    have hb : e.curve = .arc (x / u) (y / v) (r / u) (r / v) false := by
      cases hc : plotColour l with
      | ok cl =>
        simp [PySet.plotCurves, ellipseCurves, ellipseArc, drawAll, at?, hc, hu, hv, bind, Except.bind, pure, Except.pure] at he
        rw [he]
      | error er => simp [PySet.plotCurves, ellipseCurves, ellipseArc, drawAll, at?, hc, bind, Except.bind] at he
    rw [hb] at hw
    have hq := corner_form hu hv hw
    have hset : docSet 2 (.ellipse [u, v] [x, y] r none) = {p : Pt 2 | ellForm u v x y p ≤ (r : ℝ) ^ 2} := Set.ext fun q => mem_ellipse u v x y r h3.le q
    rw [hset]
    refine frontier_of (subset_closure hq.le) (closure_mono ?_ (ray_out hu' hv' hR hq))
    intro p hp hp'; rw [Set.mem_ofPred_eq] at hp hp'; exact absurd hp' (not_le.2 hp)
  | .torus c ro ri ds, ⟨h1, h2, h3, h4⟩ =>
    obtain ⟨x, y, rfl⟩ := two_of_length h1
    refine ⟨fun e he w hw => ?_, by rintro lb ub ds (h | h) <;> cases h⟩
    have hri : (0 : ℝ) < ri := by exact_mod_cast h3
    have hlt : (ri : ℝ) < ro := by exact_mod_cast h4
    have hR : (0 : ℝ) < (ri : ℝ) ^ 2 := by positivity
    have hlt2 : (ri : ℝ) ^ 2 < (ro : ℝ) ^ 2 := by nlinarith
    have hb : e.curve = .arc x y ri ri false ∨ e.curve = .arc x y ro ro false := by
      cases hc : plotColour l with
      | ok cl =>
        simp [PySet.plotCurves, torusCurves, circleCurves, drawAll, at?, hc, bind, Except.bind, pure, Except.pure] at he
        rcases he with he | he <;> rw [he] <;> simp
      | error er => simp [PySet.plotCurves, torusCurves, circleCurves, drawAll, hc, bind, Except.bind] at he
    have hset : docSet 2 (.torus [x, y] ro ri ds) = {p : Pt 2 | (ri : ℝ) ^ 2 ≤ ellForm 1 1 x y p ∧ ellForm 1 1 x y p ≤ (ro : ℝ) ^ 2} := Set.ext fun q => by
      rw [mem_torus h2 x y ro ri h3.le h4]; simp [ellForm]
    rw [hset]
    rcases hb with hb | hb <;> rw [hb] at hw <;> have hq := corner_circle hw
    · refine frontier_of (subset_closure ⟨hq.ge, by rw [hq]; exact hlt2.le⟩) (closure_mono ?_ (ray_in one_ne_zero one_ne_zero hR hq))
      intro p hp hp'; exact absurd hp'.1 (not_le.2 hp)
    · refine frontier_of (subset_closure ⟨by rw [hq]; exact hlt2.le, hq.le⟩) (closure_mono ?_ (ray_out one_ne_zero one_ne_zero (hR.trans hlt2) hq))
      intro p hp hp'; exact absurd hp'.2 (not_le.2 hp)

example : Proper (.rectangle [-1, 0] [1, 2] none) ∧ Proper (.torus [0, 0] 2 1 none) ∧ Proper (.ellipse [1, 2] [0, 1] 3 none) ∧ Proper (.openSphere [0, 1] 3 (some [0, 1])) :=
  ⟨⟨Or.inl (Or.inl rfl), -1, 1, 0, 2, rfl, rfl, by norm_num, by norm_num⟩, by norm_num [Proper, Straight, noSel], by norm_num [Proper], by norm_num [Proper, Straight, noSel]⟩

/-! ### what is not shown -/

/-- **C81 (sets without outline).** Intersections, the whole plane and the empty set are left out of the figures without a message, as are all sets whose label is not one of
the six known ones. -/
theorem C81_left_out (l : String) (S T : PySet) (n : ℕ) (rest : Dict String PySet) :
    plotDomains ((l, .inter S T) :: rest) = plotDomains rest ∧ plotDomains ((l, .reals n) :: rest) = plotDomains rest ∧
    plotDomains ((l, .empty) :: rest) = plotDomains rest ∧
    (l ∉ [XD, XI, XU, XS, XG, XF] → Outlined S → plotDomains ((l, S) :: rest) = plotDomains rest) := by
  refine ⟨by simp [plotDomains, PySet.plotCurves], by simp [plotDomains, PySet.plotCurves], by simp [plotDomains, PySet.plotCurves], fun hl hS => ?_⟩
  have hc : plotColour l = .error .attributeError := by
    simp only [XD, XI, XU, XS, XG, XF, List.mem_cons, List.not_mem_nil, or_false, not_or] at hl
    simp [plotColour, hl]
  simp [plotDomains, (plotCurves_outlined l S hS).2 _ hc]

/-- **C81 (colours).** Six labels have a colour; different labels have different colours and legend entries. -/
theorem C81_colours : (∀ l, (∃ cl, plotColour l = .ok cl) ↔ l ∈ [XD, XI, XU, XS, XG, XF]) ∧
    ∀ l l' cl cl', plotColour l = .ok cl → plotColour l' = .ok cl' → cl.1 = cl'.1 ∨ cl.2 = cl'.2 → l = l' := by
  have key : ∀ l cl, plotColour l = .ok cl → (l, cl) ∈ [("goal", "green", "Goal"), ("unsafe", "red", "Unsafe"), ("safe", "tab:cyan", "Safe"), ("init", "blue", "Initial"),
      ("lie", "black", "Domain"), ("final", "orange", "Final")] := by
    intro l cl h
    unfold plotColour at h
    split_ifs at h with h1 h2 h3 h4 h5 h6 <;> cases h <;> subst_vars <;> decide +kernel
  constructor
  · intro l
    constructor
    · rintro ⟨cl, h⟩
      have := key l cl h
      simp only [List.mem_cons, Prod.mk.injEq, List.not_mem_nil, or_false] at this
      rcases this with ⟨rfl, -⟩ | ⟨rfl, -⟩ | ⟨rfl, -⟩ | ⟨rfl, -⟩ | ⟨rfl, -⟩ | ⟨rfl, -⟩ <;> decide +kernel
    · intro h
      simp only [XD, XI, XU, XS, XG, XF, List.mem_cons, List.not_mem_nil, or_false] at h
      rcases h with rfl | rfl | rfl | rfl | rfl | rfl <;> exact ⟨_, rfl⟩
  · intro l l' cl cl' h h' hor
    have a := key l cl h
    have b := key l' cl' h'
    simp only [List.mem_cons, Prod.mk.injEq, List.not_mem_nil, or_false] at a b
    rcases a with ⟨rfl, rfl⟩ | ⟨rfl, rfl⟩ | ⟨rfl, rfl⟩ | ⟨rfl, rfl⟩ | ⟨rfl, rfl⟩ | ⟨rfl, rfl⟩ <;>
      rcases b with ⟨rfl, rfl⟩ | ⟨rfl, rfl⟩ | ⟨rfl, rfl⟩ | ⟨rfl, rfl⟩ | ⟨rfl, rfl⟩ | ⟨rfl, rfl⟩ <;>
      first | rfl | (exfalso; revert hor; decide +kernel)

theorem plotDomains_error {doms : Dict String PySet} {l : String} {S : PySet} {e : Err} (hm : (l, S) ∈ doms) (he : (S.plotCurves l).2 = .error e)
    (hne : e ≠ .attributeError) : ∃ e', (plotDomains doms).2 = .error e' ∧ e' ≠ .attributeError := by
  induction doms with
  | nil => simp at hm
  | cons d rest ih =>
    obtain ⟨l', S'⟩ := d
    rcases List.mem_cons.1 hm with h | h
    · cases h
      simp only [plotDomains]
      generalize S.plotCurves l = r at he
      obtain ⟨cs, r⟩ := r
      simp only at he
      subst he
      refine ⟨e, ?_, hne⟩
      cases e <;> first | rfl | exact absurd rfl hne
    · obtain ⟨e', h1, h2⟩ := ih h
      simp only [plotDomains]
      generalize S'.plotCurves l' = r
      obtain ⟨cs, _ | _⟩ := r
      · rename_i er
        by_cases hx : er = .attributeError
        · subst hx; exact ⟨e', h1, h2⟩
        · refine ⟨er, ?_, hx⟩
          cases er <;> first | rfl | exact absurd rfl hx
      · exact ⟨e', h1, h2⟩

/-- **C81 (sets that cannot be drawn).** A problem with a bean, or with a ball or box whose parameters do not have two entries (such as a ball in one selected coordinate),
has no figures: drawing raises, whatever the other sets are. -/
theorem C81_undrawable (doms : Dict String PySet) (l : String) (S : PySet) (hm : (l, S) ∈ doms)
    (h : (∃ c r, S = .bean c r) ∨ (∃ c r ds, (S = .sphere c r ds ∨ S = .openSphere c r ds) ∧ c.length ≠ 2) ∨
      ∃ lb ub ds, (S = .rectangle lb ub ds ∨ S = .openRectangle lb ub ds) ∧ lb.length ≠ 2) :
    ∃ e, (plotDomains doms).2 = .error e := by
  have key : ∃ e, (S.plotCurves l).2 = .error e ∧ e ≠ .attributeError := by
    rcases h with ⟨c, r, rfl⟩ | ⟨c, r, ds, rfl | rfl, h⟩ | ⟨lb, ub, ds, rfl | rfl, h⟩
    · exact ⟨.typeError, rfl, by decide⟩
    all_goals exact ⟨.notImplemented, by simp [PySet.plotCurves, circleCurves, rectCurves, drawAll, h], by decide⟩
  obtain ⟨e, he, hne⟩ := key
  obtain ⟨e', h', -⟩ := plotDomains_error hm he hne
  exact ⟨e', h'⟩

example : ∃ e, (plotDomains [(XD, .rectangle [-1, -1] [1, 1] none), (XI, .sphere [0] 1 (some [0])), (XU, .bean [0, 0] 1)]).2 = .error e :=
  C81_undrawable _ XU (.bean [0, 0] 1) (by simp) (Or.inl ⟨_, _, rfl⟩)

/-- **C81, negation (exchanged coordinates).** A ball given in the coordinates `[1, 0]` is drawn at the wrong place: the set below is the unit disc around `(0, 3)`, the
drawn circle is the one around `(3, 0)`; no corner of it is anywhere near the set. -/
theorem C81_exchanged_misplaced : WF 2 (.sphere [3, 0] 1 (some [1, 0])) ∧
    (∀ p : Pt 2, p ∈ docSet 2 (.sphere [3, 0] 1 (some [1, 0])) ↔ p 0 ^ 2 + (p 1 - 3) ^ 2 ≤ 1) ∧
    ∃ ds, plotDomains [(XI, .sphere [3, 0] 1 (some [1, 0]))] = (ds, .ok ()) ∧ ds ≠ [] ∧
      ∀ d ∈ ds, ∀ w ∈ d.curve.path, (w.1 - 3) ^ 2 + w.2 ^ 2 = 1 := by
  refine ⟨by norm_num [WF, selCount, selOk], fun p => ?_, _, rfl, by simp, ?_⟩
  · simp [docSet, coords, Pt.env, Spec.reals, euclid, add_comm]
  · intro d hd w hw
    simp only [plotDomains, List.append_nil, List.mem_singleton] at hd
    subst hd
    have := corner_circle hw
    simpa [ellForm] using this

/-- **C81, negation (inner outlines).** Of a union all outlines are drawn: a drawn corner can lie inside the set. -/
theorem C81_inner_curves : Outlined (.union (.sphere [0, 0] 2 none) (.sphere [0, 0] 1 none)) ∧
    ∃ d ∈ ((PySet.union (.sphere [0, 0] 2 none) (.sphere [0, 0] 1 none)).plotCurves XI).1, ∃ w ∈ d.curve.path,
      (![w.1, w.2] : Pt 2) ∈ interior (docSet 2 (.union (.sphere [0, 0] 2 none) (.sphere [0, 0] 1 none))) := by
  refine ⟨by norm_num [Outlined, Straight, noSel], ⟨.arc 0 0 1 1 false, "blue", "Initial"⟩, ?_, (1, 0), ?_, ?_⟩
  · simp [PySet.plotCurves, circleCurves, drawAll, at?, plotColour, XI, bind, Except.bind, pure, Except.pure]
  · simp only [Curve.path, List.mem_map, List.mem_range]
    exact ⟨0, by norm_num, by simp⟩
  · refine mem_interior.2 ⟨{p : Pt 2 | (p 0 - (0 : ℚ)) ^ 2 + (p 1 - (0 : ℚ)) ^ 2 < ((2 : ℚ) : ℝ) ^ 2}, fun p hp => Or.inl ?_, isOpen_lt (by fun_prop) (by fun_prop), ?_⟩
    · exact (mem_disc (Or.inl (Or.inl rfl)) 0 0 2 (by norm_num) p).2 (le_of_lt hp)
    · show ((1 : ℝ) - (0 : ℚ)) ^ 2 + ((0 : ℝ) - (0 : ℚ)) ^ 2 < ((2 : ℚ) : ℝ) ^ 2
      norm_num

theorem segment_halfplane {u v q : ℝ × ℝ} (hu : 1 ≤ u.1 + u.2) (hv : 1 ≤ v.1 + v.2) (h : q ∈ _root_.segment ℝ u v) : 1 ≤ q.1 + q.2 := by
  obtain ⟨a, b, ha, hb, hab, rfl⟩ := h
  simp only [Prod.fst_add, Prod.smul_fst, Prod.snd_add, Prod.smul_snd, smul_eq_mul]
  nlinarith

theorem onPath_halfplane : ∀ (path : List (ℝ × ℝ)) (q : Pt 2), (∀ w ∈ path, 1 ≤ w.1 + w.2) → onPath path q → 1 ≤ q 0 + q 1
  | [], _, _, h => by exact absurd h id
  | [_], _, _, h => by exact absurd h id
  | u :: v :: rest, q, hw, h => by
    rcases h with h | h
    · exact segment_halfplane (hw u (by simp)) (hw v (by simp)) h
    · exact onPath_halfplane (v :: rest) q (fun w hm => hw w (List.mem_cons_of_mem _ hm)) h

/-- **C81, negation (positive orthant).** Of a positive-orthant ball only the arc is drawn, its straight edges on the axes are missing. -/
theorem C81_orthant_edges_missing : ∃ p ∈ frontier (docSet 2 (.posSphere [0, 0] 1)), ∃ ds, plotDomains [(XI, .posSphere [0, 0] 1)] = (ds, .ok ()) ∧ ds ≠ [] ∧
    ∀ d ∈ ds, ¬ Shown d p := by
  have hmem : ∀ p : Pt 2, p ∈ docSet 2 (.posSphere [0, 0] 1) ↔ (0 < p 0 ∧ 0 < p 1) ∧ p 0 ^ 2 + p 1 ^ 2 ≤ 1 := by
    intro p
    simp [docSet, coords, Spec.reals, euclid, Fin.forall_fin_two]
  refine ⟨![0, 1/2], ?_, _, rfl, by simp, ?_⟩
  · refine frontier_of ?_ (subset_closure ?_)
    · have hc : Continuous (fun t : ℝ => (![t, 1/2] : Pt 2)) := by
        refine continuous_pi fun i => ?_
        fin_cases i <;> simp <;> fun_prop
      have := image_closure_subset_closure_image (s := Set.Ioo (0 : ℝ) (1/2)) hc ⟨0, by rw [closure_Ioo (by norm_num)]; norm_num, rfl⟩
      refine closure_mono ?_ this
      rintro _ ⟨t, ht, rfl⟩
      refine (hmem _).2 ⟨⟨ht.1, by norm_num⟩, ?_⟩
      have h1 := ht.1
      have h2 := ht.2
      simp only [Matrix.cons_val_zero, Matrix.cons_val_one]
      nlinarith
    · intro h
      have := ((hmem _).1 h).1.1
      simp at this
  · intro d hd
    simp only [plotDomains, List.append_nil, List.mem_singleton] at hd
    subst hd
    rintro ⟨q, hq, h1, h2⟩
    have hhalf := onPath_halfplane _ q (fun w hw => by
      simp only [Curve.path, List.mem_map, List.mem_range, if_true] at hw
      obtain ⟨k, hk, rfl⟩ := hw
      have hpi := Real.pi_pos
      have hk' : (k : ℝ) ≤ 49 := by exact_mod_cast Nat.le_of_lt_succ hk
      have hk0 : (0 : ℝ) ≤ k := Nat.cast_nonneg k
      have t0 : 0 ≤ (k : ℝ) * (Real.pi / 2 / 49) := by positivity
      have t1 : (k : ℝ) * (Real.pi / 2 / 49) ≤ Real.pi / 2 := by nlinarith
      generalize (k : ℝ) * (Real.pi / 2 / 49) = θ at t0 t1
      have c0 : 0 ≤ Real.cos θ := Real.cos_nonneg_of_mem_Icc ⟨by linarith, t1⟩
      have s0 : 0 ≤ Real.sin θ := Real.sin_nonneg_of_nonneg_of_le_pi t0 (by linarith)
      have := Real.sin_sq_add_cos_sq θ
      have hc1 := Real.cos_le_one θ
      have hs1 := Real.sin_le_one θ
      norm_num
      nlinarith) hq
    have hpi := Real.pi_le_four
    simp only [tol, Rat.cast_one, abs_one, one_mul, Matrix.cons_val_zero, Matrix.cons_val_one] at h1 h2
    have a1 := abs_le.1 h1
    have a2 := abs_le.1 h2
    linarith [a1.1, a2.1]

end Fossil

/- C25: rows returned by `sample_border` versus the border of the documented set. -/
import Verif.Props.C24_Sampling
import Verif.Props.C23_Boundary

namespace Fossil
open Spec

/-- The geometric border each class is documented to have (independent of the formulas): points of a box with a
coordinate at a bound, points at distance exactly the radius, either radius of a torus. -/
def Spec.docBorder (n : ℕ) : PySet → Set (Pt n)
  | .rectangle lb ub ds => {p | p ∈ docSet n (.rectangle lb ub ds) ∧
      ∃ i : Fin n, p i = ((lb.getD i 0 : ℚ) : ℝ) ∨ p i = ((ub.getD i 0 : ℚ) : ℝ)}
  | .sphere c r ds | .openSphere c r ds => {p | euclid (coords ds p) (reals c) = r}
  | .ellipse a c r ds => {p | euclid (List.zipWith (· * ·) (reals a) (coords ds p)) (reals c) = r}
  | .torus c ro ri ds => {p | euclid (coords ds p) (reals c) = ri ∨ euclid (coords ds p) (reals c) = ro}
  | .union S T => docBorder n S ∪ docBorder n T
  | .compl S => docBorder n S
  | _ => ∅

/-- Classes whose boundary formula is compared with the geometric border. -/
def HasBorder : PySet → Prop
  | .rectangle .. | .sphere .. | .openSphere .. | .ellipse .. => True
  | .torus _ _ _ ds => noSel ds
  | .compl S => HasBorder S
  | _ => False

/-- For every such set and point, `generate_boundary` holds exactly on the geometric border. -/
theorem C25_boundary_formula_is_border (b : Lib) (hb : b = .z3 ∨ b = .dreal) (n : ℕ) (S : PySet)
    (hS : WF n S) (hB : HasBorder S) :
    ∃ φ, S.generateBoundary b (vars n) = .ok φ ∧ ∀ p : Pt n, φ.holds p.env ↔ p ∈ docBorder n S := by
  have hAnd : b.has .And = true := by rcases hb with rfl | rfl <;> rfl
  have hOr : b.has .Or = true := by rcases hb with rfl | rfl <;> rfl
  induction S with
  | rectangle lb ub ds =>
    obtain ⟨h1, h2, h3⟩ := hS
    obtain ⟨φ, hφ, H⟩ := rectDomain_correct b hAnd h1 h2 false
    have hφ' : (PySet.rectangle lb ub ds).generateDomain b (vars n) = .ok φ := hφ
    refine ⟨_, by
      simp only [PySet.generateBoundary, hφ', Lib.need, hOr, hAnd, if_true, bind, Except.bind, h1,
        boundList_ok _ _ h1, boundList_ok _ _ h2, pure, Except.pure]; rfl, fun p => ?_⟩
    simp only [Formula.holds, docBorder, Set.mem_ofPred_eq]
    rw [and_comm]
    refine and_congr ?_ ?_
    · rw [H p]
      simp only [docSet, Set.mem_ofPred_eq, coords_noSel h3]
      rw [forall₂_ofFn_left _ _ _ h1, forall₂_ofFn_right _ _ _ h2]
      simp
    · simp only [Formula.holds_disj, List.mem_map, List.mem_range]
      constructor
      · rintro (⟨φ, ⟨i, hi, rfl⟩, h⟩ | ⟨φ, ⟨i, hi, rfl⟩, h⟩)
        · exact ⟨⟨i, hi⟩, .inl (by simpa [Formula.holds, Term.eval, Pt.env_lt p hi] using h)⟩
        · exact ⟨⟨i, hi⟩, .inr (by simpa [Formula.holds, Term.eval, Pt.env_lt p hi] using h)⟩
      · rintro ⟨i, h | h⟩
        · exact .inl ⟨_, ⟨i, i.2, rfl⟩, by simpa [Formula.holds, Term.eval, Pt.env_lt p i.2] using h⟩
        · exact .inr ⟨_, ⟨i, i.2, rfl⟩, by simpa [Formula.holds, Term.eval, Pt.env_lt p i.2] using h⟩
  | sphere c r ds | openSphere c r ds =>
    obtain ⟨h1, h2, h3⟩ := hS
    have h3' : (0:ℝ) ≤ r := by exact_mod_cast h3
    obtain ⟨t, ht, H⟩ := sqDist_ok (x := symCoords n ds) (c := c) (by rw [length_symCoords, h1])
    rw [length_symCoords, ← h1] at ht
    refine ⟨.eq t (.const (r ^ 2)), by
      simp only [PySet.generateBoundary, selectDims_vars h2, bind, Except.bind, ht, pure, Except.pure], fun p => ?_⟩
    simp only [Formula.holds, H, map_eval_symCoords, Term.eval, docBorder, Set.mem_ofPred_eq, euclid_eq_iff h3']
    push_cast; rfl
  | ellipse a c r ds =>
    obtain ⟨h1, h2, h3, h4⟩ := hS
    have h4' : (0:ℝ) ≤ r := by exact_mod_cast h4
    obtain ⟨t, ht, H⟩ := sqEll_ok (x := symCoords n ds) (c := c) (a := a)
      (by rw [length_symCoords, h1]) (by rw [h1, h2])
    rw [length_symCoords, ← h1] at ht
    have hg : ellGuard a ds = .ok () := by
      match ds with
      | none => rfl
      | some [] => rfl
      | some (d :: ds) => simp only [ellGuard]; rw [if_pos (by simpa [selCount] using h2)]
    refine ⟨.eq t (.const (r ^ 2)), by
      simp only [PySet.generateBoundary, selectDims_vars h3, bind, Except.bind, ht, hg, pure, Except.pure], fun p => ?_⟩
    simp only [Formula.holds, H, map_eval_symCoords, Term.eval, docBorder, Set.mem_ofPred_eq, euclid_eq_iff h4']
    push_cast; rfl
  | torus c ro ri ds =>
    obtain ⟨h1, h2, h3, h4⟩ := hS
    have h3' : (0:ℝ) ≤ ri := by exact_mod_cast h3
    have h4' : (0:ℝ) ≤ ro := by exact_mod_cast (h3.trans h4.le)
    have hsym : symCoords n ds = vars n := by rcases hB with rfl | rfl <;> rfl
    obtain ⟨t, ht, H⟩ := sqDist_ok (x := symCoords n ds) (c := c) (by rw [length_symCoords, h1])
    rw [length_symCoords, ← h1, hsym] at ht
    refine ⟨.or (.eq t (.const (ri ^ 2))) (.eq t (.const (ro ^ 2))), by
      simp only [PySet.generateBoundary, Lib.need, hOr, if_true, bind, Except.bind, ht, pure, Except.pure], fun p => ?_⟩
    simp only [Formula.holds, H, map_eval_symCoords, Term.eval, docBorder, Set.mem_ofPred_eq, euclid_eq_iff h3',
      euclid_eq_iff h4']
    push_cast; rfl
  | compl S ih => exact ih hS hB
  | openRectangle | posSphere | bean | empty | reals | union | inter | setMinus => exact hB.elim

/-- The border sampler of this set is right in dimension `n`. -/
def BorderSampleable (n : ℕ) : PySet → Prop
  | .rectangle lb ub _ => 2 ≤ n ∧ List.Forall₂ (· ≤ ·) lb ub
  | .sphere _ r ds | .openSphere _ r ds | .torus _ r _ ds => noSel ds ∧ (n = 2 ∨ n = 3 ∨ 4 ≤ n ∧ r = 1)
  | .ellipse a _ _ ds => noSel ds ∧ 1 ≤ n ∧ ∀ q ∈ a, q ≠ 0
  | .union S T => BorderSampleable n S ∧ BorderSampleable n T
  | .compl S => BorderSampleable n S
  | .posSphere .. | .bean .. | .reals _ | .empty | .inter .. | .setMinus .. => True
  | .openRectangle .. => False

/-- Border rows of `round_init_data` called with the squared radius. -/
theorem round_border_row {g : Rng} {c : List ℚ} (hnz : g.NonzeroRows c.length) {R : ℝ} (hR : 0 ≤ R)
    (hd : 2 ≤ c.length) {b : ℕ} {r : List ℝ} (h : r ∈ roundInitData g c (R ^ 2) b true) :
    r.length = c.length ∧ euclid r (reals c) = if c.length = 2 ∨ c.length = 3 then R else R ^ 2 := by
  have hs : Real.sqrt (R ^ 2) = R := Real.sqrt_sq hR
  unfold roundInitData at h
  rw [if_neg (by omega)] at h
  by_cases h2 : c.length = 2
  · rw [if_pos h2] at h
    simp only [h2, true_or, if_true]
    simp only [circleInitData, hs, List.mem_append] at h
    rcases h with h | h <;>
    · obtain ⟨i, -, rfl⟩ := mem_mkRows.1 h
      refine ⟨by rw [length_offset (by simp [polar, h2]), h2], ?_⟩
      rw [euclid_offset (by simp [polar, h2]), norm2_polar]
      simp [abs_of_nonneg hR]
  · rw [if_neg h2] at h
    by_cases h3 : c.length = 3
    · rw [if_pos h3] at h
      simp only [h3, or_true, if_true]
      simp only [sphereInitData, hs] at h
      obtain ⟨i, -, rfl⟩ := mem_mkRows.1 h
      refine ⟨by rw [length_offset (by simp [spherical, h3]), h3], ?_⟩
      rw [euclid_offset (by simp [spherical, h3]), norm2_spherical]
      simp [abs_of_nonneg hR]
    · rw [if_neg h3] at h
      simp only [h2, h3, or_self, if_false]
      obtain ⟨i, -, rfl⟩ := mem_mkRows.1 h
      refine ⟨by simp, ?_⟩
      rw [euclid_mkRow rfl]
      have e : ∀ j, rScale g (R ^ 2) c.length i j true = R ^ 2 := fun j => by simp [rScale]
      simp only [add_sub_cancel_right, e]
      exact muller_eq _ (sq_nonneg R) g _ _ (hnz 0 i)

theorem maxAbs_ge {x : List ℝ} {v : ℝ} (h : v ∈ x) : |v| ≤ maxAbs x := by
  induction x with
  | nil => simp at h
  | cons a x ih =>
    simp only [maxAbs, List.map_cons, List.foldr_cons]
    rcases List.mem_cons.1 h with rfl | h
    · exact le_max_left _ _
    · exact (ih h).trans (le_max_right _ _)

theorem maxAbs_nonneg (x : List ℝ) : 0 ≤ maxAbs x := by
  induction x with
  | nil => simp [maxAbs]
  | cons a x ih => exact le_max_of_le_right ih

theorem maxAbs_attained {x : List ℝ} (h : x ≠ []) : ∃ v ∈ x, |v| = maxAbs x := by
  induction x with
  | nil => exact absurd rfl h
  | cons a x ih =>
    have e : maxAbs (a :: x) = max |a| (maxAbs x) := rfl
    by_cases hx : x = []
    · subst hx
      exact ⟨a, List.mem_cons_self, by rw [e]; simp [maxAbs]⟩
    · obtain ⟨v, hv, hv'⟩ := ih hx
      rcases le_total |a| (maxAbs x) with h1 | h1
      · exact ⟨v, List.mem_cons_of_mem _ hv, by rw [e, max_eq_right h1, hv']⟩
      · exact ⟨a, List.mem_cons_self, by rw [e, max_eq_left h1]⟩

/-- A unit vector is sent by `sphere_to_cube` to the surface of the unit cube. -/
theorem sphereToCube_unit {x : List ℝ} (hx : norm2 x = 1) :
    (sphereToCube x).length = x.length ∧ (∀ v ∈ sphereToCube x, |v| ≤ 1) ∧ ∃ v ∈ sphereToCube x, |v| = 1 := by
  have hnz : ¬ ∀ v ∈ x, v = 0 := by
    intro h
    have : (x.map fun a => a ^ 2).sum = 0 := by
      apply List.sum_eq_zero; intro y hy
      obtain ⟨a, ha, rfl⟩ := List.mem_map.1 hy
      rw [h a ha]; norm_num
    rw [norm2, this] at hx; simp at hx
  have hne : x ≠ [] := by rintro rfl; simp at hnz
  have hpos : 0 < maxAbs x := by
    by_contra hcon
    apply hnz
    intro v hv
    have := maxAbs_ge hv
    exact abs_nonpos_iff.1 (this.trans (not_lt.1 hcon))
  rw [sphereToCube, if_neg hnz, hx]
  refine ⟨by simp, ?_, ?_⟩
  · intro v hv
    obtain ⟨w, hw, rfl⟩ := List.mem_map.1 hv
    rw [abs_mul, abs_of_pos (by positivity : 0 < 1 / maxAbs x), mul_one_div, div_le_one hpos]
    exact maxAbs_ge hw
  · obtain ⟨w, hw, hw'⟩ := maxAbs_attained hne
    refine ⟨_, List.mem_map_of_mem hw, ?_⟩
    rw [abs_mul, abs_of_pos (by positivity : 0 < 1 / maxAbs x), mul_one_div, hw', div_self hpos.ne']

/-- **C25 (partial).** For every set whose border sampler is right (boxes in dimension at least two, balls and
tori in dimension two and three (any dimension above three when the radius is one), ellipses, unions,
complements), every batch size and every draw, each row returned by `sample_border` lies on the border.
Missing from the full statement: one-dimensional sets, open boxes and balls of other radii in dimension above
three - there it is false, see below. -/
theorem C25_border_samples_partial (n : ℕ) (S : PySet) (hS : WF n S) (hs : BorderSampleable n S)
    (g : Rng) (hnz : g.NonzeroRows n) (b : ℕ) (rows : Rows) (h : S.sampleBorder g b = .ok rows) :
    ∀ r ∈ rows, ∃ p : Pt n, List.ofFn p = r ∧ p ∈ docBorder n S := by
  have hround : ∀ (c : List ℚ) (R : ℚ), c.length = n → 0 ≤ R → (n = 2 ∨ n = 3 ∨ 4 ≤ n ∧ R = 1) →
      ∀ (g : Rng) (b : ℕ), g.NonzeroRows n → ∀ r ∈ roundInitData g c ((R : ℝ) ^ 2) b true,
      ∃ p : Pt n, List.ofFn p = r ∧ euclid (List.ofFn p) (reals c) = R := by
    intro c R hc hR hn g b hnz r hr
    have hR' : (0 : ℝ) ≤ R := by exact_mod_cast hR
    obtain ⟨hl, he⟩ := round_border_row (hc ▸ hnz) hR' (by omega) hr
    obtain ⟨p, hp⟩ := exists_pt_of_length (hl.trans hc)
    refine ⟨p, hp, ?_⟩
    rw [hp, he]
    split
    · rfl
    · rename_i hne
      rcases hn with h | h | h
      · exact absurd (Or.inl (hc.trans h)) hne
      · exact absurd (Or.inr (hc.trans h)) hne
      · rw [h.2]; norm_num
  intro r hr
  induction S generalizing g b rows r with
  | rectangle lb ub ds =>
    obtain ⟨h1, h2, h3⟩ := hS
    obtain ⟨hn, hle⟩ := hs
    simp only [PySet.sampleBorder, rectSampleBorder, h1, h2, if_true, Except.ok.injEq] at h
    subst h
    obtain ⟨u, hu, rfl⟩ := List.mem_map.1 hr
    have hu1 : u.length = n ∧ norm2 u = 1 := by
      have hz : (List.replicate n (0 : ℚ)).length = n := by simp
      have hu' : u ∈ roundInitData g (List.replicate n 0) ((1 : ℝ) ^ 2) b true := by simpa using hu
      obtain ⟨ha, hb⟩ := round_border_row (c := List.replicate n 0) (by simpa using hnz) zero_le_one
        (by simpa using hn) hu'
      refine ⟨ha.trans hz, ?_⟩
      simp only [one_pow, ite_self] at hb
      rw [← hb, norm2, euclid]
      congr 2
      have hl : u.length = n := ha.trans hz
      apply List.ext_getElem
      · simp [reals, hl]
      · intro i hi1 hi2; simp [reals]
    obtain ⟨hul, hu1⟩ := hu1
    obtain ⟨hl, hall, v, hv, hv1⟩ := sphereToCube_unit hu1
    set y := sphereToCube u with hy
    have hyl : y.length = n := hl.trans hul
    have hbd : ∀ j < n, ent lb j ≤ ent ub j := by
      intro j hj
      have := List.forall₂_iff_get.1 hle
      rw [ent_eq (h1 ▸ hj), ent_eq (h2 ▸ hj)]
      exact_mod_cast this.2 j (h1 ▸ hj) (h2 ▸ hj)
    refine ⟨fun k => (y.getD k 0 + 1) * (ent ub k - ent lb k) / 2 + ent lb k, ?_, ?_, ?_⟩
    · rw [cubeMove, hyl, ← ofFn_eq_mkRow]
    · simp only [docSet, Set.mem_ofPred_eq, coords_noSel h3]
      rw [ofFn_eq_mkRow n (fun k => (y.getD k 0 + 1) * (ent ub k - ent lb k) / 2 + ent lb k), reals_eq_mkRow,
        reals_eq_mkRow, h1, h2, forall₂_mkRow, forall₂_mkRow]
      have hyb : ∀ j < n, -1 ≤ y.getD j 0 ∧ y.getD j 0 ≤ 1 := by
        intro j hj
        have : y.getD j 0 ∈ y := by
          have hj' : j < y.length := hyl ▸ hj
          simp [List.getD, hj']
        exact abs_le.1 (hall _ this)
      refine ⟨fun j hj => ?_, fun j hj => ?_⟩ <;> have := hbd j hj <;> have := hyb j hj <;> nlinarith
    · obtain ⟨j, hj, e⟩ := List.mem_iff_getElem.1 hv
      have hjn : j < n := hyl ▸ hj
      refine ⟨⟨j, hjn⟩, ?_⟩
      have e' : y.getD j 0 = v := by simp [List.getD, hj, e]
      simp only [e']
      rcases (abs_eq zero_le_one).1 hv1 with h | h <;> rw [h]
      · right; simp only [ent]; ring
      · left; simp only [ent]; ring
  | openRectangle => exact hs.elim
  | sphere c R ds | openSphere c R ds =>
    obtain ⟨h1, -, h0⟩ := hS
    obtain ⟨h3, h4⟩ := hs
    have hc : c.length = n := by rcases h3 with rfl | rfl <;> simpa [selCount] using h1
    cases h
    obtain ⟨p, hp, he⟩ := hround c R hc h0 h4 g b hnz r hr
    exact ⟨p, hp, by simpa only [docBorder, Set.mem_ofPred_eq, coords_noSel h3] using he⟩
  | torus c R ri ds =>
    obtain ⟨h1, -, h0, hlt⟩ := hS
    obtain ⟨h3, h4⟩ := hs
    have hc : c.length = n := by rcases h3 with rfl | rfl <;> simpa [selCount] using h1
    cases h
    obtain ⟨p, hp, he⟩ := hround c R hc (h0.trans hlt.le) h4 g b hnz r hr
    exact ⟨p, hp, .inr (by rw [coords_noSel h3]; exact he)⟩
  | ellipse a c R ds =>
    obtain ⟨h1, h2, -, h0⟩ := hS
    obtain ⟨h3, hn, h4⟩ := hs
    have hc : c.length = n := by rcases h3 with rfl | rfl <;> simpa [selCount] using h1
    have ha : a.length = n := by rcases h3 with rfl | rfl <;> simpa [selCount] using h2
    have hR : (0 : ℝ) ≤ R := by exact_mod_cast h0
    simp only [PySet.sampleBorder, nDimEllipseInitData, ha, hc, if_true, Except.ok.injEq] at h
    subst h
    obtain ⟨i, -, rfl⟩ := mem_mkRows.1 hr
    refine ⟨fun k => rScale g R n i k true / ent a k * g.randn 0 i k / gaussNorm g n i + ent c k / ent a k,
      ?_, ?_⟩
    · rw [← ofFn_eq_mkRow]
    · simp only [docBorder, Set.mem_ofPred_eq, coords_noSel h3]
      rw [ofFn_eq_mkRow n (fun k => rScale g R n i k true / ent a k * g.randn 0 i k / gaussNorm g n i +
        ent c k / ent a k), zipWith_reals_left (· * ·) ha, euclid_mkRow hc]
      have e : ∀ j ∈ Finset.range n, (ent a j * (rScale g R n i j true / ent a j * g.randn 0 i j /
          gaussNorm g n i + ent c j / ent a j) - ent c j) ^ 2 =
          ((R : ℝ) * g.randn 0 i j / gaussNorm g n i) ^ 2 := by
        intro j hj
        have hj : j < a.length := ha ▸ Finset.mem_range.1 hj
        have hne : ent a j ≠ 0 := by
          rw [ent_eq hj]; exact_mod_cast h4 _ (List.getElem_mem hj)
        congr 1
        have e' : rScale g R n i j true = R := by simp [rScale]
        rw [e']
        field_simp
        ring
      rw [Finset.sum_congr rfl e]
      exact muller_eq _ hR g _ _ (hnz 0 i)
  | union S T ihS ihT =>
    simp only [PySet.sampleBorder] at h
    obtain ⟨x, hx, h⟩ := except_bind_ok h
    obtain ⟨y, hy, h⟩ := except_bind_ok h
    cases h
    rcases List.mem_append.1 hr with hr | hr
    · obtain ⟨p, h1, h2⟩ := ihS hS.1 hs.1 _ (hnz.sub 0) _ _ hx r hr
      exact ⟨p, h1, Or.inl h2⟩
    · obtain ⟨p, h1, h2⟩ := ihT hS.2 hs.2 _ (hnz.sub 1) _ _ hy r hr
      exact ⟨p, h1, Or.inr h2⟩
  | compl S ih => exact ih hS hs g hnz b rows h r hr
  | posSphere | bean | reals | empty | inter | setMinus => cases h

/-- Consequence in terms of the API: for a set with both methods, every border row satisfies the formula returned by
`generate_boundary` of the same set. -/
theorem C25_border_samples_satisfy_boundary_partial (lib : Lib) (hlib : lib = .z3 ∨ lib = .dreal) (n : ℕ) (S : PySet)
    (hS : WF n S) (hB : HasBorder S) (hs : BorderSampleable n S)
    (g : Rng) (hnz : g.NonzeroRows n) (b : ℕ) (rows : Rows) (h : S.sampleBorder g b = .ok rows) :
    ∃ φ, S.generateBoundary lib (vars n) = .ok φ ∧
      ∀ r ∈ rows, ∃ p : Pt n, List.ofFn p = r ∧ φ.holds p.env := by
  obtain ⟨φ, hφ, H⟩ := C25_boundary_formula_is_border lib hlib n S hS hB
  refine ⟨φ, hφ, fun r hr => ?_⟩
  obtain ⟨p, hp, hm⟩ := C25_border_samples_partial n S hS hs g hnz b rows h r hr
  exact ⟨p, hp, (H p).2 hm⟩

/-- The hypotheses are met by a five-dimensional box and a planar torus' complement. -/
example : ∃ g : Rng, g.NonzeroRows 5 ∧ g.NonzeroRows 2 ∧
    WF 5 (.rectangle [-1, -1, -1, -1, -1] [1, 1, 2, 2, 3] none) ∧
    HasBorder (.rectangle [-1, -1, -1, -1, -1] [1, 1, 2, 2, 3] none) ∧
    BorderSampleable 5 (.rectangle [-1, -1, -1, -1, -1] [1, 1, 2, 2, 3] none) ∧
    WF 2 (.compl (.torus [0, 0] 3 1 none)) ∧ HasBorder (.compl (.torus [0, 0] 3 1 none)) ∧
    BorderSampleable 2 (.compl (.torus [0, 0] 3 1 none)) := by
  refine ⟨constRng (1/2), fun _ _ => ⟨0, by norm_num, by simp [constRng]⟩,
    fun _ _ => ⟨0, by norm_num, by simp [constRng]⟩, ?_⟩
  norm_num [WF, HasBorder, BorderSampleable, noSel, selCount, selOk]

/-- In one dimension `sample_border` of **every** non-degenerate interval returns interior points for some draws
(`segment` ignores `on_border`, domains.py:93-94). -/
theorem C25_interval_border_is_interior (lo hi : ℚ) (h : lo < hi) :
    ∃ g : Rng, g.Valid ∧ g.NonzeroRows 1 ∧ ∃ row, (PySet.rectangle [lo] [hi] none).sampleBorder g 1 = .ok [row] ∧
      ∀ p : Pt 1, List.ofFn p = row → p ∉ docBorder 1 (.rectangle [lo] [hi] none) := by
  refine ⟨constRng (1/2), constRng_valid (by norm_num) (by norm_num), fun _ _ => ⟨0, by norm_num, by simp [constRng]⟩,
    [((lo : ℝ) + hi) / 2], ?_, ?_⟩
  · simp [PySet.sampleBorder, rectSampleBorder, roundInitData, segment, mkRows, mkRow, constRng, ent, cubeMove,
      sphereToCube]
    norm_num
    ring
  · intro p hp hmem
    obtain ⟨-, i, hi'⟩ := hmem
    have hi0 : i = 0 := Subsingleton.elim _ _
    subst hi0
    simp only [List.ofFn_succ, List.ofFn_zero, List.cons.injEq] at hp
    have h' : (lo : ℝ) < hi := by exact_mod_cast h
    rcases hi' with e | e <;> simp at e <;> have := hp.1 <;> rw [this] at e <;> linarith

/-- In every dimension above three `sample_border` of **every** ball whose radius is neither zero nor one returns, for
**every** draw, only rows that are off the border (the squared radius is used as radius, domains.py:102, 692-697). -/
theorem C25_ball_border_wrong (n : ℕ) (hn : 4 ≤ n) (c : List ℚ) (hc : c.length = n) (r : ℚ) (hr : 0 < r)
    (hr1 : r ≠ 1) (g : Rng) (hnz : g.NonzeroRows n) (b : ℕ) :
    ∃ rows, (PySet.sphere c r none).sampleBorder g b = .ok rows ∧ rows.length = b ∧
      ∀ row ∈ rows, ∀ p : Pt n, List.ofFn p = row → p ∉ docBorder n (.sphere c r none) := by
  refine ⟨_, rfl, length_roundInitData _ _ _ _ _, ?_⟩
  intro row hrow p hp hmem
  have hr' : (0 : ℝ) < r := by exact_mod_cast hr
  have hne : (r : ℝ) ≠ 1 := by exact_mod_cast hr1
  obtain ⟨-, he⟩ := round_border_row (hc ▸ hnz) hr'.le (by omega) hrow
  rw [if_neg (by omega)] at he
  simp only [docBorder, Set.mem_ofPred_eq, coords_noSel (Or.inl rfl), hp, he] at hmem
  apply hne
  have : (r : ℝ) * (r - 1) = 0 := by linarith
  rcases mul_eq_zero.1 this with h | h
  · linarith
  · linarith

example : (constRng (1/2)).NonzeroRows 4 := fun _ _ => ⟨0, by norm_num, by simp [constRng]⟩

end Fossil

/- C24: sampled rows versus the documented set; C26: how many rows are returned. -/
import Verif.Lemmas.Sampling
import Verif.Props.C22_Containment

namespace Fossil
open Spec

/-- Rows of `round_init_data` called with the squared radius (as `Sphere` and `Torus` do): distance from
the centre at most the radius in dimensions two and three, but only at most the *squared* radius otherwise. -/
theorem round_row_le {g : Rng} (hg : g.Valid) {c : List ℚ} {R : ℝ} (hR : 0 ≤ R) {b : ℕ} {o : Bool}
    {r : List ℝ} (h : r ∈ roundInitData g c (R ^ 2) b o) :
    r.length = c.length ∧
    euclid r (reals c) ≤ if c.length = 2 ∨ c.length = 3 then R else R ^ 2 := by
  have hs : Real.sqrt (R ^ 2) = R := Real.sqrt_sq hR
  have key : ∀ t : ℝ, 0 ≤ t ∧ t < 1 → |R * t| ≤ R := fun t ht => by
    rw [abs_of_nonneg (mul_nonneg hR ht.1)]; nlinarith [ht.2]
  unfold roundInitData at h
  by_cases h1 : c.length = 1
  · rw [if_pos h1] at h
    obtain ⟨i, -, rfl⟩ := mem_mkRows.1 h
    refine ⟨by simp [h1], ?_⟩
    obtain ⟨q, rfl⟩ := List.length_eq_one_iff.1 h1
    have hu := hg 0 i 0
    simp only [List.length_cons, List.length_nil, zero_add, Nat.reduceEqDiff, or_self, if_false]
    apply Real.sqrt_le_iff.2 ⟨by positivity, ?_⟩
    simp only [reals, List.map_cons, List.map_nil, List.zipWith_cons_cons, List.zipWith_nil_right,
      List.sum_cons, List.sum_nil, ent, List.getD_cons_zero, add_zero]
    apply sq_le_sq'
    · nlinarith [sq_nonneg R, hu.1, mul_nonneg (sq_nonneg R) hu.1]
    · nlinarith [sq_nonneg R, hu.1, hu.2, mul_nonneg (sq_nonneg R) (sub_nonneg.2 hu.2.le)]
  · rw [if_neg h1] at h
    by_cases h2 : c.length = 2
    · rw [if_pos h2] at h
      simp only [h2, true_or, if_true]
      simp only [circleInitData, hs, List.mem_append] at h
      rcases h with h | h
      · obtain ⟨i, -, rfl⟩ := mem_mkRows.1 h
        refine ⟨by rw [length_offset (by simp [polar, h2]), h2], ?_⟩
        rw [euclid_offset (by simp [polar, h2]), norm2_polar]
        cases o with
        | true => simp [abs_of_nonneg hR]
        | false => simpa using key _ (hg 1 i 0)
      · obtain ⟨i, -, rfl⟩ := mem_mkRows.1 h
        refine ⟨by rw [length_offset (by simp [polar, h2]), h2], ?_⟩
        rw [euclid_offset (by simp [polar, h2]), norm2_polar, abs_of_nonneg hR]
    · rw [if_neg h2] at h
      by_cases h3 : c.length = 3
      · rw [if_pos h3] at h
        simp only [h3, or_true, if_true]
        simp only [sphereInitData, hs] at h
        obtain ⟨i, -, rfl⟩ := mem_mkRows.1 h
        refine ⟨by rw [length_offset (by simp [spherical, h3]), h3], ?_⟩
        rw [euclid_offset (by simp [spherical, h3]), norm2_spherical]
        cases o with
        | true => simp [abs_of_nonneg hR]
        | false => simpa using key _ (hg 2 i 0)
      · rw [if_neg h3] at h
        simp only [h2, h3, or_self, if_false]
        obtain ⟨i, -, rfl⟩ := mem_mkRows.1 h
        refine ⟨by simp, ?_⟩
        rw [euclid_mkRow rfl]
        simp only [add_sub_cancel_right]
        exact muller_le _ _ (fun j => rScale_abs_le hg (sq_nonneg R) _ _ _ _) g _ _

/-- Three-dimensional interior rows are strictly inside. -/
theorem sphere_row_lt {g : Rng} (hg : g.Valid) {c : List ℚ} {R : ℝ} (hR : 0 < R) (h3 : c.length = 3) {b : ℕ}
    {r : List ℝ} (h : r ∈ roundInitData g c (R ^ 2) b false) : euclid r (reals c) < R := by
  have hs : Real.sqrt (R ^ 2) = R := Real.sqrt_sq hR.le
  simp only [roundInitData, h3, Nat.reduceEqDiff, if_false, if_true, sphereInitData, hs] at h
  obtain ⟨i, -, rfl⟩ := mem_mkRows.1 h
  rw [euclid_offset (by simp [spherical, h3]), norm2_spherical]
  have := hg 2 i 0
  simp only [Bool.false_eq_true, if_false]
  rw [abs_of_nonneg (mul_nonneg hR.le this.1)]; nlinarith

/-- Polarity-aware radius condition: with `true` every radius makes the numeric test sound (no outside
point accepted), with `false` complete (no inside point rejected). -/
def RadOk : Bool → PySet → Prop
  | true, .sphere _ r _ | true, .openSphere _ r _ | true, .ellipse _ _ r _ | true, .torus _ r _ _ => r ≤ 1
  | false, .sphere _ r _ | false, .openSphere _ r _ | false, .ellipse _ _ r _ | false, .torus _ r _ _ => 1 ≤ r
  | b, .setMinus S T => RadOk b S ∧ RadOk (!b) T
  | b, .compl S => RadOk (!b) S
  | _, _ => True

/-- **C22 (partial, one-sided).** `check_containment` accepts only members when (positively occurring) radii
are at most one, and accepts all members when they are at least one. -/
theorem C22_containment_one_sided_partial (n : ℕ) (S : PySet) (hS : WF n S) (hc : Checkable S) (p : Pt n) :
    ∃ P, S.checkContainment (List.ofFn p) = .ok P ∧
      (RadOk true S → P → p ∈ docSet n S) ∧ (RadOk false S → p ∈ docSet n S → P) := by
  have up : ∀ r : ℚ, 1 ≤ r → (r : ℝ) ≤ (r : ℝ) ^ 2 := fun r h => by
    have : (1 : ℝ) ≤ r := by exact_mod_cast h
    nlinarith
  have dn : ∀ r : ℚ, 0 ≤ r → r ≤ 1 → (r : ℝ) ^ 2 ≤ r := fun r h0 h => by
    have : (r : ℝ) ≤ 1 := by exact_mod_cast h
    have : (0 : ℝ) ≤ r := by exact_mod_cast h0
    nlinarith
  induction S with
  | rectangle lb ub ds =>
    obtain ⟨P, h, H⟩ := C22_containment_agrees_partial n _ hS hc trivial p
    exact ⟨P, h, fun _ => H.1, fun _ => H.2⟩
  | openRectangle lb ub ds =>
    obtain ⟨P, h, H⟩ := C22_containment_agrees_partial n _ hS hc trivial p
    exact ⟨P, h, fun _ => H.1, fun _ => H.2⟩
  | sphere c r ds =>
    obtain ⟨h1, -, h0⟩ := hS
    rcases hc with rfl | rfl <;>
    · simp only [PySet.checkContainment, rowSub_ofFn p (c := c) h1, bind, Except.bind, pure, Except.pure]
      refine ⟨_, rfl, ?_, ?_⟩ <;> simp only [norm2_zipWith_sub, docSet, coords, RadOk, Set.mem_ofPred_eq]
      · exact fun hr h => h.trans (dn r h0 hr)
      · exact fun hr h => h.trans (up r hr)
  | openSphere c r ds =>
    obtain ⟨h1, -, h0⟩ := hS
    rcases hc with rfl | rfl <;>
    · simp only [PySet.checkContainment, rowSub_ofFn p (c := c) h1, bind, Except.bind, pure, Except.pure]
      refine ⟨_, rfl, ?_, ?_⟩ <;> simp only [norm2_zipWith_sub, docSet, coords, RadOk, Set.mem_ofPred_eq]
      · exact fun hr h => h.trans_le (dn r h0 hr)
      · exact fun hr h => h.trans_le (up r hr)
  | ellipse a c r ds =>
    obtain ⟨h1, h2, -, h0⟩ := hS
    have e : List.zipWith (fun (b : ℚ) v => (b : ℝ) * v) a (List.ofFn p) =
        List.zipWith (· * ·) (reals a) (List.ofFn p) := by
      simp [reals, List.zipWith_map_left]
    rcases hc with rfl | rfl <;>
    · simp only [selCount] at h1 h2
      simp only [PySet.checkContainment, rowScale, List.length_ofFn, h2, if_true, rowSub,
        List.length_zipWith, h1, min_self, bind, Except.bind, pure, Except.pure]
      refine ⟨_, rfl, ?_, ?_⟩ <;>
        simp only [norm2_zipWith_sub, e, docSet, coords, RadOk, Set.mem_ofPred_eq]
      · exact fun hr h => h.trans (dn r h0 hr)
      · exact fun hr h => h.trans (up r hr)
  | torus c ro ri ds =>
    obtain ⟨h1, -, h0, hlt⟩ := hS
    rcases hc with rfl | rfl <;>
    · simp only [PySet.checkContainment, rowSub_ofFn p (c := c) h1, bind, Except.bind, pure, Except.pure]
      refine ⟨_, rfl, ?_, ?_⟩ <;> simp only [norm2_zipWith_sub, docSet, coords, RadOk, Set.mem_ofPred_eq]
      · exact fun hr h => ⟨h.1, h.2.trans (dn ro (h0.trans hlt.le) hr)⟩
      · exact fun hr h => ⟨h.1, h.2.trans (up ro hr)⟩
  | empty => exact ⟨False, rfl, fun _ h => h.elim, fun _ h => by simp [docSet] at h⟩
  | setMinus S T ihS ihT =>
    obtain ⟨P, hP, HP, HP'⟩ := ihS hS.1 hc.1
    obtain ⟨Q, hQ, HQ, HQ'⟩ := ihT hS.2 hc.2
    refine ⟨P ∧ ¬ Q, by simp [PySet.checkContainment, hP, hQ, bind, Except.bind, pure, Except.pure], ?_, ?_⟩
    · exact fun hr h => ⟨HP hr.1 h.1, fun h' => h.2 (HQ' hr.2 h')⟩
    · exact fun hr h => ⟨HP' hr.1 h.1, fun h' => h.2 (HQ hr.2 h')⟩
  | compl S ihS =>
    obtain ⟨P, hP, HP, HP'⟩ := ihS hS hc
    refine ⟨¬ P, by simp [PySet.checkContainment, hP, bind, Except.bind, pure, Except.pure], ?_, ?_⟩
    · exact fun hr h h' => h (HP' hr h')
    · exact fun hr h h' => h (HP hr h')
  | posSphere | bean | reals | union | inter => exact hc.elim

example : WF 2 (.setMinus (.sphere [0, 0] (1/2) none) (.sphere [1, 0] 3 none)) ∧
    Checkable (.setMinus (.sphere [0, 0] (1/2) none) (.sphere [1, 0] 3 none)) ∧
    RadOk true (.setMinus (.sphere [0, 0] (1/2) none) (.sphere [1, 0] 3 none)) := by
  norm_num [WF, Checkable, RadOk, noSel, selCount, selOk]

/-- The sampler of this set is right in dimension `n` with random source `g`. -/
def Sampleable (g : Rng) (n : ℕ) : PySet → Prop
  | .rectangle lb ub _ => List.Forall₂ (· ≤ ·) lb ub
  | .openRectangle lb ub _ => List.Forall₂ (· < ·) lb ub ∧ g.Pos
  | .sphere _ r ds => noSel ds ∧ (n = 2 ∨ n = 3 ∨ r ≤ 1)
  | .openSphere _ r ds => noSel ds ∧ 0 < r ∧ (n = 3 ∨ n ≠ 2 ∧ r < 1)
  | .ellipse a _ _ ds => noSel ds ∧ ∀ q ∈ a, q ≠ 0
  | .posSphere c r => (∀ q ∈ c, 0 ≤ q) ∧ 0 < r ∧ g.Pos
  | .torus _ ro ri ds => noSel ds ∧ ri = 0 ∧ (n = 2 ∨ n = 3 ∨ ro ≤ 1)
  | .union S T => Sampleable (g.sub 0) n S ∧ Sampleable (g.sub 1) n T
  | .inter S T => Sampleable (g.sub 0) n S ∧ Sampleable (g.sub 1) n T ∧
      Checkable S ∧ RadOk true S ∧ Checkable T ∧ RadOk true T
  | .setMinus S T => Sampleable g n S ∧ Checkable T ∧ RadOk false T
  | .bean .. | .empty | .reals _ | .compl _ => True

theorem mem_filterRows {T : PySet} {keep : Bool} {rows out : Rows} (h : filterRows T keep rows = .ok out)
    {r : List ℝ} (hr : r ∈ out) : r ∈ rows ∧ ∃ P, T.checkContainment r = .ok P ∧ (P ↔ keep = true) := by
  induction rows generalizing out with
  | nil => cases h; simp at hr
  | cons x xs ih =>
    simp only [filterRows] at h
    obtain ⟨P, hP, h⟩ := except_bind_ok h
    obtain ⟨rest, hrest, h⟩ := except_bind_ok h
    cases h
    by_cases hd : (@decide P (Classical.propDecidable P)) = keep
    · rw [if_pos hd] at hr
      rcases List.mem_cons.1 hr with rfl | hr
      · refine ⟨List.mem_cons_self, P, hP, ?_⟩
        subst hd; simp
      · obtain ⟨h1, h2⟩ := ih hrest hr
        exact ⟨List.mem_cons_of_mem _ h1, h2⟩
    · rw [if_neg hd] at hr
      obtain ⟨h1, h2⟩ := ih hrest hr
      exact ⟨List.mem_cons_of_mem _ h1, h2⟩

theorem length_filterRows {T : PySet} {keep : Bool} {rows out : Rows} (h : filterRows T keep rows = .ok out) :
    out.length ≤ rows.length := by
  induction rows generalizing out with
  | nil => cases h; simp
  | cons x xs ih =>
    simp only [filterRows] at h
    obtain ⟨P, hP, h⟩ := except_bind_ok h
    obtain ⟨rest, hrest, h⟩ := except_bind_ok h
    cases h
    have := ih hrest
    split <;> simp <;> omega

/-- **C24 (partial).** For every set expression whose sampler is right (`Sampleable`: closed boxes; open boxes
and positive-orthant balls when no draw is exactly zero; balls in dimension 2 and 3 or of radius at most one;
ellipses; unions; intersections and differences filtered by a correct containment test), every batch size and
every random draw, each row returned by `generate_data` is a point of the documented set.
Missing from the full statement: larger balls in dimensions 1 and above 3, tori with a hole, open balls in the
plane, dimension selection - there it is false, see the theorems below. -/
theorem C24_samples_in_set_partial (n : ℕ) (S : PySet) (hS : WF n S) (g : Rng) (hg : g.Valid)
    (hs : Sampleable g n S) (b : ℕ) (rows : Rows) (h : S.generateData g b = .ok rows) :
    ∀ r ∈ rows, ∃ p : Pt n, List.ofFn p = r ∧ p ∈ docSet n S := by
  intro r hr
  induction S generalizing g b rows r with
  | rectangle lb ub ds =>
    obtain ⟨h1, h2, h3⟩ := hS
    simp only [PySet.generateData, squareInitData, h1, h2, if_true, Except.ok.injEq] at h
    subst h
    obtain ⟨i, -, rfl⟩ := mem_mkRows.1 hr
    refine ⟨fun k => (ent lb k - ent ub k) * g.rand 0 i k + ent ub k, ?_, ?_⟩
    · rw [← ofFn_eq_mkRow]
    · have hb : ∀ j < n, ent lb j ≤ ent ub j := by
        intro j hj
        have := List.forall₂_iff_get.1 hs
        rw [ent_eq (h1 ▸ hj), ent_eq (h2 ▸ hj)]
        exact_mod_cast this.2 j (h1 ▸ hj) (h2 ▸ hj)
      simp only [docSet, Set.mem_ofPred_eq, coords_noSel h3]
      rw [ofFn_eq_mkRow n (fun k => (ent lb k - ent ub k) * g.rand 0 i k + ent ub k), reals_eq_mkRow,
        reals_eq_mkRow, h1, h2, forall₂_mkRow, forall₂_mkRow]
      refine ⟨fun j hj => ?_, fun j hj => ?_⟩ <;> have := hb j hj <;> have := hg 0 i j <;> nlinarith
  | openRectangle lb ub ds =>
    obtain ⟨h1, h2, h3⟩ := hS
    obtain ⟨hs, hpos⟩ := hs
    simp only [PySet.generateData, squareInitData, h1, h2, if_true, Except.ok.injEq] at h
    subst h
    obtain ⟨i, -, rfl⟩ := mem_mkRows.1 hr
    refine ⟨fun k => (ent lb k - ent ub k) * g.rand 0 i k + ent ub k, ?_, ?_⟩
    · rw [← ofFn_eq_mkRow]
    · have hb : ∀ j < n, ent lb j < ent ub j := by
        intro j hj
        have := List.forall₂_iff_get.1 hs
        rw [ent_eq (h1 ▸ hj), ent_eq (h2 ▸ hj)]
        exact_mod_cast this.2 j (h1 ▸ hj) (h2 ▸ hj)
      simp only [docSet, Set.mem_ofPred_eq, coords_noSel h3]
      rw [ofFn_eq_mkRow n (fun k => (ent lb k - ent ub k) * g.rand 0 i k + ent ub k), reals_eq_mkRow,
        reals_eq_mkRow, h1, h2, forall₂_mkRow, forall₂_mkRow]
      refine ⟨fun j hj => ?_, fun j hj => ?_⟩ <;> have := hb j hj <;> have := hg 0 i j <;>
        have := hpos 0 i j <;> nlinarith
  | sphere c R ds =>
    obtain ⟨h1, -, h0⟩ := hS
    obtain ⟨h3, h4⟩ := hs
    have hc : c.length = n := by rcases h3 with rfl | rfl <;> simpa [selCount] using h1
    have hR : (0 : ℝ) ≤ R := by exact_mod_cast h0
    simp only [PySet.generateData, Except.ok.injEq] at h
    subst h
    obtain ⟨hl, hd⟩ := round_row_le hg hR hr
    obtain ⟨p, hp⟩ := exists_pt_of_length (hl.trans hc)
    refine ⟨p, hp, ?_⟩
    simp only [docSet, Set.mem_ofPred_eq, coords_noSel h3, hp]
    refine hd.trans ?_
    split
    · exact le_rfl
    · rename_i hne
      have : (R : ℝ) ≤ 1 := by
        rcases h4 with h4 | h4 | h4
        · exact absurd (Or.inl (hc.trans h4)) hne
        · exact absurd (Or.inr (hc.trans h4)) hne
        · exact_mod_cast h4
      nlinarith
  | openSphere c R ds =>
    obtain ⟨h1, -, h0⟩ := hS
    obtain ⟨h3, hR0, h4⟩ := hs
    have hc : c.length = n := by rcases h3 with rfl | rfl <;> simpa [selCount] using h1
    have hR : (0 : ℝ) < R := by exact_mod_cast hR0
    simp only [PySet.generateData, Except.ok.injEq] at h
    subst h
    obtain ⟨hl, hd⟩ := round_row_le hg hR.le hr
    obtain ⟨p, hp⟩ := exists_pt_of_length (hl.trans hc)
    refine ⟨p, hp, ?_⟩
    simp only [docSet, Set.mem_ofPred_eq, coords_noSel h3, hp]
    by_cases hn3 : n = 3
    · exact sphere_row_lt hg hR (hc.trans hn3) hr
    · obtain ⟨hn2, hlt⟩ := h4.resolve_left hn3
      have hlt : (R : ℝ) < 1 := by exact_mod_cast hlt
      rw [if_neg (by rw [hc]; tauto)] at hd
      nlinarith
  | ellipse a c R ds =>
    obtain ⟨h1, h2, -, h0⟩ := hS
    obtain ⟨h3, h4⟩ := hs
    have hc : c.length = n := by rcases h3 with rfl | rfl <;> simpa [selCount] using h1
    have ha : a.length = n := by rcases h3 with rfl | rfl <;> simpa [selCount] using h2
    have hR : (0 : ℝ) ≤ R := by exact_mod_cast h0
    have h' : nDimEllipseInitData g a c R b false = .ok rows := by
      rcases h3 with rfl | rfl <;> exact h
    simp only [nDimEllipseInitData, ha, hc, if_true, Except.ok.injEq] at h'
    subst h'
    obtain ⟨i, -, rfl⟩ := mem_mkRows.1 hr
    refine ⟨fun k => rScale g R n i k false / ent a k * g.randn 0 i k / gaussNorm g n i + ent c k / ent a k,
      ?_, ?_⟩
    · rw [← ofFn_eq_mkRow]
    · simp only [docSet, Set.mem_ofPred_eq, coords_noSel h3]
      rw [ofFn_eq_mkRow n (fun k => rScale g R n i k false / ent a k * g.randn 0 i k / gaussNorm g n i +
        ent c k / ent a k), zipWith_reals_left (· * ·) ha, euclid_mkRow hc]
      have e : ∀ j ∈ Finset.range n, (ent a j * (rScale g R n i j false / ent a j * g.randn 0 i j /
          gaussNorm g n i + ent c j / ent a j) - ent c j) ^ 2 =
          (rScale g R n i j false * g.randn 0 i j / gaussNorm g n i) ^ 2 := by
        intro j hj
        have hj : j < a.length := ha ▸ Finset.mem_range.1 hj
        have hne : ent a j ≠ 0 := by
          rw [ent_eq hj]; exact_mod_cast h4 _ (List.getElem_mem hj)
        congr 1
        field_simp
        ring
      rw [Finset.sum_congr rfl e]
      exact muller_le _ _ (fun j => rScale_abs_le hg hR _ _ _ _) g _ _
  | posSphere c R =>
    obtain ⟨hc, h0⟩ := hS
    obtain ⟨hq, hR0, hpos⟩ := hs
    have hR : (0 : ℝ) < R := by exact_mod_cast hR0
    have hsq : Real.sqrt ((R : ℝ) ^ 2) = R := Real.sqrt_sq hR.le
    have key : ∀ t : ℝ, 0 ≤ t ∧ t < 1 → |R * t| ≤ R := fun t ht => by
      rw [abs_of_nonneg (mul_nonneg hR.le ht.1)]; nlinarith [ht.2]
    have hang : ∀ k i j, 0 < Real.pi / 2 * g.rand k i j ∧ Real.pi / 2 * g.rand k i j < Real.pi / 2 :=
      fun k i j => ⟨mul_pos Real.pi_div_two_pos (hpos k i j), by
        nlinarith [Real.pi_div_two_pos, (hg k i j).2]⟩
    have hcos : ∀ k i j, 0 < Real.cos (Real.pi / 2 * g.rand k i j) := fun k i j =>
      Real.cos_pos_of_mem_Ioo ⟨by linarith [(hang k i j).1, Real.pi_pos], (hang k i j).2⟩
    have hsin : ∀ k i j, 0 < Real.sin (Real.pi / 2 * g.rand k i j) := fun k i j =>
      Real.sin_pos_of_pos_of_lt_pi (hang k i j).1 (by linarith [(hang k i j).2, Real.pi_pos])
    have hpt : ∀ off : List ℝ, off.length = n → (∀ v ∈ off, 0 < v) → norm2 off ≤ R →
        ∃ p : Pt n, List.ofFn p = offset c off ∧ p ∈ docSet n (.posSphere c R) := by
      intro off hl hv hN
      have hlen : c.length = off.length := hc.trans hl.symm
      obtain ⟨p, hp⟩ := exists_pt_of_length (n := n) ((length_offset hlen).trans hc)
      refine ⟨p, hp, ?_, ?_⟩
      · intro k
        have : p k ∈ offset c off := by rw [← hp]; exact List.mem_ofFn.2 ⟨k, rfl⟩
        simp only [offset, List.mem_iff_getElem, List.length_zipWith, List.getElem_zipWith] at this
        obtain ⟨j, hj, e⟩ := this
        rw [← e]
        have hj1 : j < c.length := by omega
        have hj2 : j < off.length := by omega
        have h1 : (0 : ℝ) ≤ (c[j] : ℝ) := by exact_mod_cast hq _ (List.getElem_mem hj1)
        have h2 := hv _ (List.getElem_mem hj2)
        linarith
      · rw [coords_noSel (Or.inl rfl), hp, euclid_offset hlen]; exact hN
    simp only [PySet.generateData, sliceInitData, hsq] at h
    by_cases hn2 : c.length = 2
    · rw [if_pos hn2, Except.ok.injEq] at h
      subst h
      obtain ⟨i, -, rfl⟩ := mem_mkRows.1 hr
      apply hpt
      · simp [polar]; omega
      · have := hpos 1 i 0
        intro v hv
        simp only [polar, List.mem_cons, List.not_mem_nil, or_false] at hv
        have h1 := hcos 0 i 0
        have h2 := hsin 0 i 0
        rcases hv with rfl | rfl <;> positivity
      · rw [norm2_polar]; exact key _ (hg 1 i 0)
    · rw [if_neg hn2] at h
      by_cases hn3 : c.length = 3
      · rw [if_pos hn3, Except.ok.injEq] at h
        subst h
        obtain ⟨i, -, rfl⟩ := mem_mkRows.1 hr
        apply hpt
        · simp [spherical]; omega
        · have := hpos 2 i 0
          intro v hv
          simp only [spherical, List.mem_cons, List.not_mem_nil, or_false] at hv
          have h1 := hcos 0 i 0
          have h2 := hsin 0 i 0
          have h3 := hcos 1 i 0
          have h4 := hsin 1 i 0
          rcases hv with rfl | rfl | rfl <;> positivity
        · rw [norm2_spherical]; exact key _ (hg 2 i 0)
      · rw [if_neg hn3] at h; cases h
  | torus c R ri ds =>
    obtain ⟨h1, -, h0, hlt⟩ := hS
    obtain ⟨h3, rfl, h4⟩ := hs
    have hc : c.length = n := by rcases h3 with rfl | rfl <;> simpa [selCount] using h1
    have hR : (0 : ℝ) ≤ R := by exact_mod_cast hlt.le
    simp only [PySet.generateData, Except.ok.injEq] at h
    subst h
    obtain ⟨hl, hd⟩ := round_row_le hg hR hr
    obtain ⟨p, hp⟩ := exists_pt_of_length (hl.trans hc)
    refine ⟨p, hp, ?_⟩
    simp only [docSet, Set.mem_ofPred_eq, coords_noSel h3, hp]
    refine ⟨by rw [Rat.cast_zero]; exact Real.sqrt_nonneg _, hd.trans ?_⟩
    split
    · exact le_rfl
    · rename_i hne
      have : (R : ℝ) ≤ 1 := by
        rcases h4 with h4 | h4 | h4
        · exact absurd (Or.inl (hc.trans h4)) hne
        · exact absurd (Or.inr (hc.trans h4)) hne
        · exact_mod_cast h4
      nlinarith
  | bean | reals | compl | empty => cases h
  | union S T ihS ihT =>
    simp only [PySet.generateData] at h
    obtain ⟨x, hx, h⟩ := except_bind_ok h
    obtain ⟨y, hy, h⟩ := except_bind_ok h
    cases h
    rcases List.mem_append.1 hr with hr | hr
    · obtain ⟨p, h1, h2⟩ := ihS hS.1 _ (hg.sub 0) hs.1 _ _ hx r hr
      exact ⟨p, h1, Or.inl h2⟩
    · obtain ⟨p, h1, h2⟩ := ihT hS.2 _ (hg.sub 1) hs.2 _ _ hy r hr
      exact ⟨p, h1, Or.inr h2⟩
  | inter S T ihS ihT =>
    obtain ⟨hs1, hs2, hcS, hrS, hcT, hrT⟩ := hs
    simp only [PySet.generateData] at h
    obtain ⟨x, hx, h⟩ := except_bind_ok h
    obtain ⟨x', hx', h⟩ := except_bind_ok h
    obtain ⟨y, hy, h⟩ := except_bind_ok h
    obtain ⟨y', hy', h⟩ := except_bind_ok h
    cases h
    rcases List.mem_append.1 hr with hr | hr
    · obtain ⟨hm, P, hP, hP'⟩ := mem_filterRows hx' hr
      obtain ⟨p, h1, h2⟩ := ihS hS.1 _ (hg.sub 0) hs1 _ _ hx r hm
      obtain ⟨Q, hQ, hQ', -⟩ := C22_containment_one_sided_partial n T hS.2 hcT p
      rw [h1, hP, Except.ok.injEq] at hQ
      exact ⟨p, h1, h2, hQ' hrT (hQ ▸ hP'.2 rfl)⟩
    · obtain ⟨hm, P, hP, hP'⟩ := mem_filterRows hy' hr
      obtain ⟨p, h1, h2⟩ := ihT hS.2 _ (hg.sub 1) hs2 _ _ hy r hm
      obtain ⟨Q, hQ, hQ', -⟩ := C22_containment_one_sided_partial n S hS.1 hcS p
      rw [h1, hP, Except.ok.injEq] at hQ
      exact ⟨p, h1, hQ' hrS (hQ ▸ hP'.2 rfl), h2⟩
  | setMinus S T ihS ihT =>
    obtain ⟨hs1, hcT, hrT⟩ := hs
    simp only [PySet.generateData] at h
    obtain ⟨x, hx, h⟩ := except_bind_ok h
    obtain ⟨hm, P, hP, hP'⟩ := mem_filterRows h hr
    obtain ⟨p, h1, h2⟩ := ihS hS.1 _ hg hs1 _ _ hx r hm
    obtain ⟨Q, hQ, -, hQ'⟩ := C22_containment_one_sided_partial n T hS.2 hcT p
    rw [h1, hP, Except.ok.injEq] at hQ
    refine ⟨p, h1, h2, fun hmem => ?_⟩
    have := hQ' hrT hmem
    rw [← hQ] at this
    simpa using hP'.1 this

/-- The constant random source: every uniform draw `t`, every Gaussian draw one. -/
def constRng (t : ℝ) : Rng := ⟨fun _ _ _ => t, fun _ _ _ => 1⟩

theorem constRng_valid {t : ℝ} (h0 : 0 ≤ t) (h1 : t < 1) : (constRng t).Valid := fun _ _ _ => ⟨h0, h1⟩

/-- Hypotheses of `C24_samples_in_set_partial` are met by a non-trivial set and source, on which
`generate_data` returns. -/
example : ∃ g : Rng, g.Valid ∧
    WF 2 (.union (.sphere [1, -1] 3 none) (.setMinus (.rectangle [-3, -3] [3, 4] none) (.sphere [0, 0] 2 none))) ∧
    Sampleable g 2 (.union (.sphere [1, -1] 3 none)
      (.setMinus (.rectangle [-3, -3] [3, 4] none) (.sphere [0, 0] 2 none))) ∧
    ∃ rows, (PySet.union (.sphere [1, -1] 3 none)
      (.setMinus (.rectangle [-3, -3] [3, 4] none) (.sphere [0, 0] 2 none))).generateData g 2 = .ok rows ∧
      rows ≠ [] := by
  refine ⟨constRng (1/2), constRng_valid (by norm_num) (by norm_num), ?_, ?_, ?_⟩
  · norm_num [WF, noSel, selCount, selOk]
  · norm_num [Sampleable, Checkable, RadOk, noSel]
  · refine ⟨_, rfl, ?_⟩
    simp [roundInitData, circleInitData, mkRows]

/-- The general statement fails for **every** ball of radius greater than one in **every** dimension other than
two and three: some draws put a sample outside the ball (`round_init_data` is called with the squared radius
and does not take its root, domains.py:93-94, 102). -/
theorem C24_ball_samples_outside (n : ℕ) (hn : 0 < n) (h2 : n ≠ 2) (h3 : n ≠ 3) (c : List ℚ)
    (hc : c.length = n) (r : ℚ) (hr : 1 < r) :
    ∃ g : Rng, g.Valid ∧ g.Pos ∧ g.NonzeroRows n ∧ ∃ row,
      (PySet.sphere c r none).generateData g 1 = .ok [row] ∧
      ∀ p : Pt n, List.ofFn p = row → p ∉ docSet n (.sphere c r none) := by
  have hr' : (1 : ℝ) < r := by exact_mod_cast hr
  have hr0 : (0 : ℝ) < r := by linarith
  set t : ℝ := (1 + 1 / r) / 2 with ht
  have hinv : 1 / (r : ℝ) < 1 := by rw [div_lt_one hr0]; exact hr'
  have hinv0 : 0 < 1 / (r : ℝ) := by positivity
  have ht0 : 0 < t := by rw [ht]; linarith
  have ht1 : t < 1 := by rw [ht]; linarith
  have hrt : (r : ℝ) < r ^ 2 * t := by
    have : (r : ℝ) ^ 2 * t = (r ^ 2 + r) / 2 := by rw [ht]; field_simp
    rw [this]; nlinarith
  have hnz : ∀ s, (constRng s).NonzeroRows n := fun s _ _ => ⟨0, hn, by simp [constRng]⟩
  by_cases h1 : n = 1
  · subst h1
    refine ⟨constRng ((1 + t) / 2), constRng_valid (by linarith) (by linarith),
      fun _ _ _ => by simp only [constRng]; linarith, hnz _,
      [((ent c 0 + (r : ℝ) ^ 2) - (ent c 0 - (r : ℝ) ^ 2)) * ((1 + t) / 2) + (ent c 0 - (r : ℝ) ^ 2)], ?_, ?_⟩
    · simp only [PySet.generateData, roundInitData, hc, if_true, segment, mkRows, List.range_one,
        List.map_cons, List.map_nil, constRng]
    · intro p hp
      obtain ⟨q, rfl⟩ := List.length_eq_one_iff.1 hc
      simp only [docSet, Set.mem_ofPred_eq, coords, hp, not_le]
      apply Real.lt_sqrt_of_sq_lt
      simp only [reals, List.map_cons, List.map_nil, List.zipWith_cons_cons, List.zipWith_nil_right,
        List.sum_cons, List.sum_nil, ent, List.getD_cons_zero, add_zero, constRng]
      have e : ((q : ℝ) + (r : ℝ) ^ 2 - ((q : ℝ) - (r : ℝ) ^ 2)) * ((1 + t) / 2) + ((q : ℝ) - (r : ℝ) ^ 2) - q
          = (r : ℝ) ^ 2 * t := by ring
      rw [e]
      exact pow_lt_pow_left₀ hrt hr0.le (by norm_num)
  · refine ⟨constRng (t ^ n), constRng_valid (by positivity) (pow_lt_one₀ ht0.le ht1 (by omega)),
      fun _ _ _ => by simp only [constRng]; positivity, hnz _,
      mkRow n fun j => rScale (constRng (t ^ n)) ((r : ℝ) ^ 2) n 0 j false * (constRng (t ^ n)).randn 0 0 j /
        gaussNorm (constRng (t ^ n)) n 0 + ent c j, ?_, ?_⟩
    · simp only [PySet.generateData, roundInitData, hc, h1, h2, h3, if_false, nDimSphereInitData, mkRows,
        List.range_one, List.map_cons, List.map_nil]
    · intro p hp
      simp only [docSet, Set.mem_ofPred_eq, coords, hp, not_le]
      rw [euclid_mkRow hc]
      simp only [add_sub_cancel_right]
      have e : ∀ j, rScale (constRng (t ^ n)) ((r : ℝ) ^ 2) n 0 j false = (r : ℝ) ^ 2 * t := by
        intro j
        simp only [rScale, constRng, Bool.false_eq_true, if_false]
        rw [one_div, Real.pow_rpow_inv_natCast ht0.le (by omega)]
      simp only [e]
      rw [muller_eq _ (by positivity) _ _ _ (hnz _ 0 0)]
      exact hrt

/-- The general statement fails for **every** planar torus with a hole: the sampler draws from the whole outer
disc (domains.py:993-998). -/
theorem C24_torus_samples_in_hole (c : List ℚ) (hc : c.length = 2) (ro ri : ℚ) (hi : 0 < ri) (ho : ri < ro) :
    ∃ g : Rng, g.Valid ∧ g.Pos ∧ ∃ row,
      (PySet.torus c ro ri none).generateData g 1 = .ok [row] ∧
      ∀ p : Pt 2, List.ofFn p = row → p ∉ docSet 2 (.torus c ro ri none) := by
  have hi' : (0 : ℝ) < ri := by exact_mod_cast hi
  have ho' : (ri : ℝ) < ro := by exact_mod_cast ho
  have hro : (0 : ℝ) < ro := hi'.trans ho'
  have hs : Real.sqrt ((ro : ℝ) ^ 2) = ro := Real.sqrt_sq hro.le
  refine ⟨constRng (ri / (2 * ro)), constRng_valid (by positivity) ?_, fun _ _ _ => by simp only [constRng]; positivity,
    offset c (polar (ro * (ri / (2 * ro))) (2 * Real.pi * (ri / (2 * ro)))), ?_, ?_⟩
  · rw [div_lt_one (by positivity)]; linarith
  · simp only [PySet.generateData, roundInitData, hc, circleInitData, mkRows, hs]
    simp [constRng]
  · intro p hp hmem
    have := hmem.1
    rw [coords_noSel (Or.inl rfl), hp, euclid_offset (by simp [polar, hc]), norm2_polar] at this
    rw [abs_of_pos (by positivity)] at this
    have e : (ro : ℝ) * (ri / (2 * ro)) = ri / 2 := by field_simp
    rw [e] at this
    linarith

/-- The general statement fails for **every** open disc, every batch of at least ten and **every** draw: a tenth of
the batch lies on the circle itself (domains.py:147, 159-163). -/
theorem C24_open_disc_samples_border (c : List ℚ) (hc : c.length = 2) (r : ℚ) (hr : 0 ≤ r) (b : ℕ) (hb : 10 ≤ b)
    (g : Rng) : ∃ rows, (PySet.openSphere c r none).generateData g b = .ok rows ∧
      ∃ row ∈ rows, ∀ p : Pt 2, List.ofFn p = row → p ∉ docSet 2 (.openSphere c r none) := by
  have hr' : (0 : ℝ) ≤ r := by exact_mod_cast hr
  have hs : Real.sqrt ((r : ℝ) ^ 2) = r := Real.sqrt_sq hr'
  refine ⟨_, rfl, offset c (polar r (2 * Real.pi * g.rand 2 0 0)), ?_, ?_⟩
  · simp only [roundInitData, hc, Nat.reduceEqDiff, if_false, if_true, circleInitData, hs, List.mem_append]
    right
    exact mem_mkRows.2 ⟨0, by omega, rfl⟩
  · intro p hp hmem
    simp only [docSet, Set.mem_ofPred_eq] at hmem
    rw [coords_noSel (Or.inl rfl), hp, euclid_offset (by simp [polar, hc]), norm2_polar, abs_of_nonneg hr'] at hmem
    exact lt_irrefl _ hmem

/-- The general statement fails for a positive-orthant ball centred outside the orthant: the sampler returns points around the
centre (domains.py:925-930). -/
theorem C24_orthant_ball_samples_outside (c0 c1 r : ℚ) (h : c0 < 0) :
    ∃ g : Rng, g.Valid ∧ ∃ row, (PySet.posSphere [c0, c1] r).generateData g 1 = .ok [row] ∧
      ∀ p : Pt 2, List.ofFn p = row → p ∉ docSet 2 (.posSphere [c0, c1] r) := by
  refine ⟨constRng 0, constRng_valid le_rfl one_pos, [c0, c1], ?_, ?_⟩
  · simp [PySet.generateData, sliceInitData, mkRows, constRng, offset, polar]
  · intro p hp hmem
    have h0 := hmem.1 0
    simp only [List.ofFn_succ, List.cons.injEq] at hp
    rw [hp.1] at h0
    have : (c0 : ℝ) < 0 := by exact_mod_cast h
    linarith

/-! ### C26 -/

/-- The classes that sample directly (no combination of other sets). -/
def Primitive : PySet → Prop
  | .rectangle .. | .openRectangle .. | .sphere .. | .openSphere .. | .ellipse .. | .posSphere .. | .torus .. => True
  | _ => False

theorem length_roundInitData (g : Rng) (c : List ℚ) (r : ℝ) (b : ℕ) (o : Bool) :
    (roundInitData g c r b o).length = b := by
  unfold roundInitData
  split_ifs
  · simp [segment]
  · simp only [circleInitData, List.length_append, length_mkRows]; omega
  · simp [sphereInitData]
  · simp [nDimSphereInitData]

/-- **C26.** A primitive set returns exactly the requested number of rows, whatever the draws. -/
theorem C26_primitive_row_count (S : PySet) (hS : Primitive S) (g : Rng) (b : ℕ) (rows : Rows)
    (h : S.generateData g b = .ok rows) : rows.length = b := by
  cases S with
  | rectangle | openRectangle =>
    simp only [PySet.generateData, squareInitData] at h
    split at h
    · cases h; simp
    · cases h
  | sphere | openSphere | torus => cases h; exact length_roundInitData _ _ _ _ _
  | ellipse a c r ds =>
    simp only [PySet.generateData] at h
    obtain ⟨x, hx, h⟩ := except_bind_ok h
    obtain ⟨y, hy, h⟩ := except_bind_ok h
    simp only [nDimEllipseInitData] at h
    split at h
    · cases h; simp
    · cases h
  | posSphere =>
    simp only [PySet.generateData, sliceInitData] at h
    split at h
    · cases h; simp
    · split at h
      · cases h; simp
      · cases h
  | bean | empty | reals | union | inter | setMinus | compl => exact hS.elim

/-- The union of two primitive sets returns `2 * (b / 2)` rows: one fewer than requested when `b` is odd. -/
theorem C26_union_row_count (S T : PySet) (hS : Primitive S) (hT : Primitive T) (g : Rng) (b : ℕ) (rows : Rows)
    (h : (PySet.union S T).generateData g b = .ok rows) : rows.length = 2 * (b / 2) := by
  simp only [PySet.generateData] at h
  obtain ⟨x, hx, h⟩ := except_bind_ok h
  obtain ⟨y, hy, h⟩ := except_bind_ok h
  cases h
  have h1 := C26_primitive_row_count S hS _ _ _ hx
  have h2 := C26_primitive_row_count T hT _ _ _ hy
  simp; omega

/-- A difference returns at most the rows of its first set, an intersection at most those of both. -/
theorem C26_filtered_row_count (S T : PySet) (hS : Primitive S) (hT : Primitive T) (g : Rng) (b : ℕ) (rows : Rows) :
    ((PySet.setMinus S T).generateData g b = .ok rows → rows.length ≤ b) ∧
    ((PySet.inter S T).generateData g b = .ok rows → rows.length ≤ 2 * b) := by
  constructor <;> intro h <;> simp only [PySet.generateData] at h
  · obtain ⟨x, hx, h⟩ := except_bind_ok h
    rw [← C26_primitive_row_count S hS _ _ _ hx]
    exact length_filterRows h
  · obtain ⟨x, hx, h⟩ := except_bind_ok h
    obtain ⟨x', hx', h⟩ := except_bind_ok h
    obtain ⟨y, hy, h⟩ := except_bind_ok h
    obtain ⟨y', hy', h⟩ := except_bind_ok h
    cases h
    have := length_filterRows hx'
    have := length_filterRows hy'
    have := C26_primitive_row_count S hS _ _ _ hx
    have := C26_primitive_row_count T hT _ _ _ hy
    simp; omega

example (g : Rng) : ∃ rows, (PySet.union (.sphere [0, 0, 0] 2 none) (.rectangle [0, 0, 0] [1, 1, 1] none)).generateData g 7
    = .ok rows ∧ rows.length = 6 :=
  ⟨_, rfl, C26_union_row_count (.sphere [0, 0, 0] 2 none) (.rectangle [0, 0, 0] [1, 1, 1] none) trivial trivial g 7 _ rfl⟩

end Fossil

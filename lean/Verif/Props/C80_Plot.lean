/-
C80: the figures of a run show the function that was verified (where they do).
-/
import Verif.Plot
import Verif.Props.C73_Level

namespace Fossil
open Spec

namespace Spec

/-- Column `j`, row `i` of a mesh of 100 × 100 points over a rectangle. -/
noncomputable def gridPoint (xr yr : ℚ × ℚ) (i j : ℕ) : Pt 2 :=
  ![(xr.1 : ℝ) + j * ((xr.2 - xr.1) / 99), (yr.1 : ℝ) + i * ((yr.2 - yr.1) / 99)]

/-- A drawn surface: 100 rows of 100 heights, the height over each mesh point as given. -/
def Heights (Z : List (List ℝ)) (xr yr : ℚ × ℚ) (F : Pt 2 → ℝ → Prop) : Prop :=
  Z.length = 100 ∧ (∀ row ∈ Z, row.length = 100) ∧
  ∀ i < 100, ∀ j < 100, ∃ row z, Z[i]? = some row ∧ row[j]? = some z ∧ F (gridPoint xr yr i j) z

end Spec

theorem reshape_flatMap {α β : Type} (w : ℕ) (f : α → List β) : ∀ (l : List α), (∀ a ∈ l, (f a).length = w) →
    reshape w l.length (l.flatMap f) = l.map f
  | [], _ => rfl
  | a :: l, h => by
    have ha : (f a).length = w := h a (List.mem_cons_self)
    simp only [List.length_cons, reshape, List.flatMap_cons, List.map_cons]
    rw [List.take_left' ha, List.drop_left' ha, reshape_flatMap w f l (fun b hb => h b (List.mem_cons_of_mem a hb))]

theorem mapM_total {α β : Type} {f : α → Except Err β} {g : α → β} : ∀ (l : List α), (∀ a ∈ l, f a = .ok (g a)) → l.mapM f = .ok (l.map g)
  | [], _ => rfl
  | a :: l, h => by
    rw [List.mapM_cons, h a List.mem_cons_self, mapM_total l (fun b hb => h b (List.mem_cons_of_mem a hb))]
    rfl

theorem length_linspace (a b : ℚ) (m : ℕ) : (linspace a b m).length = m := by simp [linspace]

theorem linspace_get (a b : ℚ) {k : ℕ} (h : k < 100) : (linspace a b 100)[k]? = some (a + k * ((b - a) / 99)) := by
  rw [linspace, List.getElem?_map, List.getElem?_range h]
  norm_num

theorem mesh_rows {xr yr : ℚ × ℚ} {r : List ℝ} (h : r ∈ meshRows (linspace xr.1 xr.2 100) (linspace yr.1 yr.2 100)) :
    ∃ p : Pt 2, r = coordList p := by
  simp only [meshRows, List.mem_flatMap, List.mem_map] at h
  obtain ⟨y, -, x, -, rfl⟩ := h
  exact ⟨![(x : ℝ), (y : ℝ)], by simp [coordList]⟩

/-- A function computed row by row on the mesh and reshaped has its value at `(x_j, y_i)` in row `i`, column `j`. -/
theorem reshape_heights (xr yr : ℚ × ℚ) (g : List ℝ → ℝ) (F : Pt 2 → ℝ → Prop) (hF : ∀ p, F p (g (coordList p))) :
    Heights (reshape 100 100 ((meshRows (linspace xr.1 xr.2 100) (linspace yr.1 yr.2 100)).map g)) xr yr F := by
  have e : (meshRows (linspace xr.1 xr.2 100) (linspace yr.1 yr.2 100)).map g
      = (linspace yr.1 yr.2 100).flatMap (fun y => (linspace xr.1 xr.2 100).map (fun x => g [((x : ℚ) : ℝ), ((y : ℚ) : ℝ)])) := by
    simp [meshRows, List.map_flatMap, List.map_map, Function.comp_def]
  have hl := reshape_flatMap 100 (fun y => (linspace xr.1 xr.2 100).map (fun x => g [((x : ℚ) : ℝ), ((y : ℚ) : ℝ)]))
    (linspace yr.1 yr.2 100) (fun a _ => by rw [List.length_map, length_linspace])
  rw [length_linspace] at hl
  rw [e, hl]
  refine ⟨by rw [List.length_map, length_linspace], ?_, ?_⟩
  · intro row hrow
    obtain ⟨y, -, rfl⟩ := List.mem_map.1 hrow
    rw [List.length_map, length_linspace]
  · intro i hi j hj
    refine ⟨(linspace xr.1 xr.2 100).map (fun x => g [((x : ℚ) : ℝ), ((yr.1 + i * ((yr.2 - yr.1) / 99) : ℚ) : ℝ)]), g [((xr.1 + j * ((xr.2 - xr.1) / 99) : ℚ) : ℝ), ((yr.1 + i * ((yr.2 - yr.1) / 99) : ℚ) : ℝ)], ?_, ?_, ?_⟩
    · rw [List.getElem?_map, linspace_get _ _ hi]; rfl
    · rw [List.getElem?_map, linspace_get _ _ hj]; rfl
    · have := hF (gridPoint xr yr i j)
      have e2 : coordList (gridPoint xr yr i j)
          = [((xr.1 + j * ((xr.2 - xr.1) / 99) : ℚ) : ℝ), ((yr.1 + i * ((yr.2 - yr.1) / 99) : ℚ) : ℝ)] := by
        simp [coordList, gridPoint]
      rwa [e2] at this

theorem surface_heights (net : Net) (hs : Shaped 2 net) (xr yr : ℚ × ℚ) :
    ∃ Z, surface net xr yr = .ok Z ∧ Heights Z xr yr (fun p z => net.forward (coordList p) = .ok z) := by
  have hfw : ∀ p : Pt 2, ∃ z, net.forward (coordList p) = .ok z := fun p => by
    obtain ⟨_, _, nn, _, _, hf, _⟩ := getRowCT_spec hs false (coordList p) (coordList p) (by simp [coordList]) (by simp [coordList])
    exact ⟨nn, hf⟩
  let g : List ℝ → ℝ := fun r => match net.forward r with | .ok z => z | .error _ => 0
  have hg : ∀ p : Pt 2, net.forward (coordList p) = .ok (g (coordList p)) := fun p => by
    obtain ⟨z, hz⟩ := hfw p
    simp only [g, hz]
  have hw : ∀ r ∈ meshRows (linspace xr.1 xr.2 100) (linspace yr.1 yr.2 100), r.length = net.inputSize := fun r hr => by
    obtain ⟨p, rfl⟩ := mesh_rows hr
    rw [hs.input]; simp [coordList]
  have hm := mapM_total (f := net.forward) (g := g) _ (fun r hr => by
    obtain ⟨p, rfl⟩ := mesh_rows (xr := xr) (yr := yr) hr
    exact hg p)
  refine ⟨_, ?_, reshape_heights xr yr g _ hg⟩
  simp only [surface, Net.forwardBatch, if_pos hw, hm, bind, Except.bind, pure, Except.pure]

/-- **C80 (surface).** Both the surface and the contour lines are drawn without error for every network that fits a two-dimensional problem, and the height over each
mesh point `(x_j, y_i)` is the value there of the network *with its stored weights and without the factor*. -/
theorem C80_surface (net : Net) (hs : Shaped 2 net) (xr yr : ℚ × ℚ) :
    ∃ Z, surface net xr yr = .ok Z ∧ Heights Z xr yr (fun p z => z = certValue (-1) false net p) := by
  obtain ⟨Z, hZ, h1, h2, h3⟩ := surface_heights net hs xr yr
  refine ⟨Z, hZ, h1, h2, fun i hi j hj => ?_⟩
  obtain ⟨row, z, a, b, c⟩ := h3 i hi j hj
  refine ⟨row, z, a, b, ?_⟩
  show z = certValue (-1) false net (gridPoint xr yr i j)
  rw [certValue_neg (shaped_ne hs) false _ c]; simp

example : Shaped 2 exampleNet := exampleNet_shaped

/-- **C80 (no factor, no rounding).** If the problem has no factor and rounding does not change the weights, the drawn heights are those of the verified function. -/
theorem C80_exact_partial (net : Net) (hs : Shaped 2 net) (rnd : ℤ) (hr : roundedNet rnd net = net) (xr yr : ℚ × ℚ) :
    ∃ Z, surface net xr yr = .ok Z ∧ Heights Z xr yr (fun p z => z = certValue rnd false net p) := by
  obtain ⟨Z, hZ, h⟩ := C80_surface net hs xr yr
  refine ⟨Z, hZ, ?_⟩
  have e : ∀ p : Pt 2, certValue (-1) false net p = certValue rnd false net p := fun p => by
    simp only [certValue, hr, roundedNet_neg (shaped_ne hs)]
  simpa only [e] using h


/-- **C80 (with the factor).** With the quadratic factor (and weights that rounding does not change) the drawn heights have the sign of the verified function at every mesh
point other than the origin: the dashed zero line separates the right points. -/
theorem C80_sign_partial (net : Net) (hs : Shaped 2 net) (rnd : ℤ) (hr : roundedNet rnd net = net) (xr yr : ℚ × ℚ) :
    ∃ Z, surface net xr yr = .ok Z ∧ Heights Z xr yr (fun p z => p ≠ 0 →
      (0 < z ↔ 0 < certValue rnd true net p) ∧ (z < 0 ↔ certValue rnd true net p < 0) ∧ (z = 0 ↔ certValue rnd true net p = 0)) := by
  obtain ⟨Z, hZ, h1, h2, h3⟩ := surface_heights net hs xr yr
  refine ⟨Z, hZ, h1, h2, fun i hi j hj => ?_⟩
  obtain ⟨row, z, a, b, c⟩ := h3 i hi j hj
  refine ⟨row, z, a, b, fun hp => ?_⟩
  generalize gridPoint xr yr i j = p at *
  have e : certValue rnd true net p = z * normSq p := by
    simp only [certValue, hr, c]; simp
  have hpos : 0 < normSq p := by
    obtain ⟨k, hk⟩ := Function.ne_iff.1 hp
    refine Finset.sum_pos' (fun i _ => sq_nonneg _) ⟨k, Finset.mem_univ k, ?_⟩
    have : p k ≠ 0 := hk
    positivity
  rw [e]
  refine ⟨(mul_pos_iff_of_pos_right hpos).symm, ?_, ?_⟩
  · constructor
    · intro h; exact mul_neg_of_neg_of_pos h hpos
    · intro h; by_contra hc; exact absurd h (not_lt.2 (mul_nonneg (not_lt.1 hc) hpos.le))
  · simp [hpos.ne']

theorem lie_row (net : Net) (hs : Shaped 2 net) (p v : Pt 2) :
    ∃ r, (do
        let g ← netGradnet net (coordList p)
        computeDV g.2 (coordList v)) = .ok r ∧
      (noKink net.layers.dropLast net.acts (coordList p) →
        ∀ (γ : ℝ → Pt 2) (s : Set ℝ) (t : ℝ), γ t = p → HasDerivWithinAt γ v s t →
          HasDerivWithinAt (fun τ => certValue (-1) false net (γ τ)) r s t) := by
  obtain ⟨rows, hrows, hlen, h⟩ := C49_training_derivative 2 net false hs [p] [v] rfl
  obtain ⟨row, rfl⟩ := List.length_eq_one_iff.1 hlen
  have h0 := h 0 (by simp) (by simp) (by simp)
  simp only [List.getElem_cons_zero] at h0
  have hr : getRowCT net false (coordList p) (coordList v) = .ok row := by
    simp only [getAllCT, List.map_cons, List.map_nil, List.length_cons, if_true, getRowsCT] at hrows
    obtain ⟨a, ha, hb⟩ := except_bind_ok hrows
    simp only [bind, Except.bind, pure, Except.pure] at hb
    have := Except.ok.inj hb
    rw [ha]; congr 1; simpa using this
  obtain ⟨⟨nn, g⟩, hg, hr⟩ := except_bind_ok hr
  simp only [computeVgradV, Bool.false_eq_true, if_false] at hr
  obtain ⟨dv, hdv, hr⟩ := except_bind_ok hr
  have := Except.ok.inj hr
  refine ⟨dv, by simp only [hg, bind, Except.bind]; exact hdv, ?_⟩
  intro hk γ s t h1 h2
  have := h0.2.2 hk γ s t h1 h2
  rw [← Except.ok.inj hr] at this
  exact this

/-- **C80 (Lie derivative).** The third figure is drawn without error, and the height over each mesh point (off the kinks of ReLU networks) is the derivative of the
network's value — stored weights, no factor — along every curve that passes there with the velocity of the model. -/
theorem C80_lie (net : Net) (hs : Shaped 2 net) (dyn : List ℝ → List ℝ) (F : Pt 2 → Pt 2) (hF : ∀ p, dyn (coordList p) = coordList (F p)) (xr yr : ℚ × ℚ) :
    ∃ L, lieSurface net dyn xr yr = .ok L ∧ Heights L xr yr (fun p z =>
      noKink net.layers.dropLast net.acts (coordList p) →
        ∀ (γ : ℝ → Pt 2) (s : Set ℝ) (t : ℝ), γ t = p → HasDerivWithinAt γ (F p) s t →
          HasDerivWithinAt (fun τ => certValue (-1) false net (γ τ)) z s t) := by
  let row : List ℝ → Except Err ℝ := fun x => do
    let r ← netGradnet net x
    computeDV r.2 (dyn x)
  let g : List ℝ → ℝ := fun r => match row r with | .ok z => z | .error _ => 0
  have hrow : ∀ p : Pt 2, row (coordList p) = .ok (g (coordList p)) ∧ (noKink net.layers.dropLast net.acts (coordList p) →
        ∀ (γ : ℝ → Pt 2) (s : Set ℝ) (t : ℝ), γ t = p → HasDerivWithinAt γ (F p) s t →
          HasDerivWithinAt (fun τ => certValue (-1) false net (γ τ)) (g (coordList p)) s t) := fun p => by
    obtain ⟨r, h1, h2⟩ := lie_row net hs p (F p)
    have : row (coordList p) = .ok r := by simp only [row, hF]; exact h1
    have hg : g (coordList p) = r := by simp only [g, this]
    rw [hg]; exact ⟨this, h2⟩
  have hm := mapM_total (f := row) (g := g) _ (fun r hr => by
    obtain ⟨p, rfl⟩ := mesh_rows (xr := xr) (yr := yr) hr
    exact (hrow p).1)
  refine ⟨_, ?_, reshape_heights xr yr g _ (fun p => (hrow p).2)⟩
  simp only [lieSurface]
  show (List.mapM row _ >>= _) = _
  rw [hm]; rfl

/-! ### where the figures differ from what was verified -/

/-- `1000 (x - 0.0004) - 30`. -/
def exPlotRound : Net := ⟨2, [⟨[[1, 0]], some [-4/10000]⟩, ⟨[[1000]], some [-30]⟩], [.identity]⟩
/-- `x + 2`. -/
def exPlotShift : Net := ⟨2, [⟨[[1, 0]], some [2]⟩, ⟨[[1]], none⟩], [.identity]⟩
/-- `x²`. -/
def exPlotSquare : Net := ⟨2, [⟨[[1, 0]], none⟩, ⟨[[1]], none⟩], [.square]⟩

theorem exPlotRound_shaped : Shaped 2 exPlotRound := ⟨rfl, by simp [exPlotRound, shapedFrom], by simp [exPlotRound], ⟨_, rfl, rfl⟩⟩
theorem exPlotShift_shaped : Shaped 2 exPlotShift := ⟨rfl, by simp [exPlotShift, shapedFrom], by simp [exPlotShift], ⟨_, rfl, rfl⟩⟩
theorem exPlotSquare_shaped : Shaped 2 exPlotSquare := ⟨rfl, by simp [exPlotSquare, shapedFrom], by simp [exPlotSquare], ⟨_, rfl, rfl⟩⟩

example : roundedNet 3 exPlotSquare = exPlotSquare := by decide +kernel

theorem exPlotRound_value (p : Pt 2) : certValue (-1) false exPlotRound p = 1000 * (p 0 - 4/10000) - 30 := by
  rw [certValue_neg (shaped_ne exPlotRound_shaped) false p (y := 1000 * (p 0 - 4/10000) - 30)]
  · simp
  · simp [exPlotRound, Net.forward, hiddenForward, Layer.apply, Act.forward, dotR, coordList, bind, Except.bind, pure, Except.pure, at?]
    ring

theorem exPlotRound_rounded : roundedNet 3 exPlotRound = ⟨2, [⟨[[1, 0]], some [0]⟩, ⟨[[1000]], some [-30]⟩], [.identity]⟩ := by
  decide +kernel

theorem exPlotRound_verified (p : Pt 2) : certValue 3 false exPlotRound p = 1000 * p 0 - 30 := by
  rw [certValue, exPlotRound_rounded]
  simp [Net.forward, hiddenForward, Layer.apply, Act.forward, dotR, coordList, bind, Except.bind, pure, Except.pure, at?]
  ring

theorem exPlotShift_value (quad : Bool) (p : Pt 2) : certValue (-1) quad exPlotShift p = (p 0 + 2) * (if quad then normSq p else 1) := by
  rw [certValue_neg (shaped_ne exPlotShift_shaped) quad p (y := p 0 + 2)]
  simp [exPlotShift, Net.forward, hiddenForward, Layer.apply, Act.forward, dotR, coordList, bind, Except.bind, pure, Except.pure, at?]

theorem exPlotSquare_value (p : Pt 2) : certValue (-1) false exPlotSquare p = p 0 ^ 2 := by
  rw [certValue_neg (shaped_ne exPlotSquare_shaped) false p (y := p 0 ^ 2)]
  · simp
  · simp [exPlotSquare, Net.forward, hiddenForward, Layer.apply, Act.forward, dotR, coordList, bind, Except.bind, pure, Except.pure, at?]

/-- **C80, negation (rounding).** With the default rounding of three decimals a drawn height can be negative where the verified function is positive: the zero line separates
the wrong points. -/
theorem C80_rounding_differs : ∃ net, Shaped 2 net ∧ ∃ Z row z, ∃ i < 100, ∃ j < 100, surface net (-3, 3) (-3, 3) = .ok Z ∧ Z[i]? = some row ∧ row[j]? = some z ∧
    z < 0 ∧ 0 < certValue 3 false net (gridPoint (-3, 3) (-3, 3) i j) := by
  obtain ⟨Z, hZ, -, -, h⟩ := C80_surface exPlotRound exPlotRound_shaped (-3, 3) (-3, 3)
  obtain ⟨row, z, h1, h2, h3⟩ := h 0 (by norm_num) 50 (by norm_num)
  refine ⟨exPlotRound, exPlotRound_shaped, Z, row, z, 0, by norm_num, 50, by norm_num, hZ, h1, h2, ?_, ?_⟩
  · rw [show z = _ from h3, exPlotRound_value]; norm_num [gridPoint]
  · rw [exPlotRound_verified]; norm_num [gridPoint]

theorem line_deriv (p v : Pt 2) : HasDerivWithinAt (fun τ : ℝ => p + τ • v) v Set.univ 0 := by
  rw [hasDerivWithinAt_univ, hasDerivAt_pi]
  intro i
  have := ((hasDerivAt_id (0 : ℝ)).mul_const (v i)).const_add (p i)
  simpa using this

/-- **C80, negation (derivative with the factor).** With the quadratic factor the drawn derivative can be positive where the verified function decreases along the model. -/
theorem C80_factor_derivative_differs : ∃ net, Shaped 2 net ∧ ∃ L row z, ∃ i < 100, ∃ j < 100,
    lieSurface net (List.map (- ·)) (-3, 3) (-3, 3) = .ok L ∧ L[i]? = some row ∧ row[j]? = some z ∧ 0 < z ∧
      ∀ (γ : ℝ → Pt 2) (t : ℝ), γ t = gridPoint (-3, 3) (-3, 3) i j → HasDerivAt γ (-gridPoint (-3, 3) (-3, 3) i j) t →
        ∃ d < 0, HasDerivAt (fun τ => certValue (-1) true net (γ τ)) d t := by
  obtain ⟨L, hL, -, -, h⟩ := C80_lie exPlotShift exPlotShift_shaped (List.map (- ·)) (fun p => -p)
    (fun p => by simp [coordList]) (-3, 3) (-3, 3)
  obtain ⟨row, z, h1, h2, h3⟩ := h 0 (by norm_num) 33 (by norm_num)
  have p0 : gridPoint (-3, 3) (-3, 3) 0 33 = ![-1, -3] := by
    funext k; fin_cases k <;> norm_num [gridPoint]
  rw [p0] at h3
  refine ⟨exPlotShift, exPlotShift_shaped, L, row, z, 0, by norm_num, 33, by norm_num, hL, h1, h2, ?_, ?_⟩
  · have hd := h3 (by simp [exPlotShift, noKink]) (fun τ => ![-1, -3] + τ • -![-1, -3]) Set.univ 0 (by simp) (line_deriv _ _)
    rw [hasDerivWithinAt_univ] at hd
    have e : (fun τ : ℝ => certValue (-1) false exPlotShift ((![-1, -3] : Pt 2) + τ • -![-1, -3])) = fun τ => 1 + τ := by
      funext τ; rw [exPlotShift_value]; simp; ring
    rw [e] at hd
    have hd' : HasDerivAt (fun τ : ℝ => 1 + τ) 1 0 := (hasDerivAt_id (0 : ℝ)).const_add 1
    rw [hd.unique hd']; norm_num
  · intro γ t hp hγ
    rw [p0] at hp hγ
    have hγ' := hasDerivAt_pi.1 hγ
    have g0 := hγ' 0
    have g1 := hγ' 1
    simp only [Pi.neg_apply, Matrix.cons_val_zero, Matrix.cons_val_one] at g0 g1
    have hx : γ t 0 = -1 := by rw [hp]; rfl
    have hy : γ t 1 = -3 := by rw [hp]; rfl
    refine ⟨-10, by norm_num, ?_⟩
    have e : (fun τ => certValue (-1) true exPlotShift (γ τ)) = fun τ => (γ τ 0 + 2) * (γ τ 0 ^ 2 + γ τ 1 ^ 2) := by
      funext τ; rw [exPlotShift_value]; simp [normSq, Fin.sum_univ_two]
    rw [e]
    refine ((g0.add_const 2).mul ((g0.fun_pow 2).add (g1.fun_pow 2))).congr_deriv ?_
    simp [hx, hy]; norm_num

/-- **C80, negation (discrete time).** For a model in discrete time the drawn "derivative" can be negative where the verified difference is positive. -/
theorem C80_discrete_differs : ∃ net, Shaped 2 net ∧ ∃ L row z, ∃ i < 100, ∃ j < 100,
    lieSurface net (List.map (-2 * ·)) (-3, 3) (-3, 3) = .ok L ∧ L[i]? = some row ∧ row[j]? = some z ∧ z < 0 ∧
      0 < certValue (-1) false net ((-2 : ℝ) • gridPoint (-3, 3) (-3, 3) i j) - certValue (-1) false net (gridPoint (-3, 3) (-3, 3) i j) := by
  obtain ⟨L, hL, -, -, h⟩ := C80_lie exPlotSquare exPlotSquare_shaped (List.map (-2 * ·)) (fun p => (-2 : ℝ) • p)
    (fun p => by simp [coordList]) (-3, 3) (-3, 3)
  obtain ⟨row, z, h1, h2, h3⟩ := h 0 (by norm_num) 33 (by norm_num)
  have p0 : gridPoint (-3, 3) (-3, 3) 0 33 = ![-1, -3] := by
    funext k; fin_cases k <;> norm_num [gridPoint]
  rw [p0] at h3
  refine ⟨exPlotSquare, exPlotSquare_shaped, L, row, z, 0, by norm_num, 33, by norm_num, hL, h1, h2, ?_, ?_⟩
  · have hd := h3 (by simp [exPlotSquare, noKink]) (fun τ => ![-1, -3] + τ • ((-2 : ℝ) • ![-1, -3])) Set.univ 0 (by simp) (line_deriv _ _)
    rw [hasDerivWithinAt_univ] at hd
    have e : (fun τ : ℝ => certValue (-1) false exPlotSquare ((![-1, -3] : Pt 2) + τ • ((-2 : ℝ) • ![-1, -3]))) = fun τ => (-1 + τ * 2) ^ 2 := by
      funext τ; rw [exPlotSquare_value]; simp
    rw [e] at hd
    have hd' : HasDerivAt (fun τ : ℝ => (-1 + τ * 2) ^ 2) (-4) 0 :=
      ((((hasDerivAt_id (0 : ℝ)).mul_const 2).const_add (-1)).fun_pow 2).congr_deriv (by norm_num)
    rw [hd.unique hd']; norm_num
  · rw [p0, exPlotSquare_value, exPlotSquare_value]; norm_num

/-! ### when figures are drawn, their levels and their window -/

/-- **C80 (levels).** The dashed lines are those of height zero and of the stored level; a level zero, or a stored batch of samples, raises. -/
theorem C80_levels (b : Option BetaValue) :
    (∀ ls, contourLevels b = .ok ls → ls.Pairwise (· < ·) ∧ ∀ x, x ∈ ls ↔ x = 0 ∨ b = some (.level x)) ∧
    ((∃ e, contourLevels b = .error e) ↔ b = some (.level 0) ∨ ∃ rows, b = some (.samples rows)) := by
  rcases b with _ | v | rows
  · exact ⟨fun ls h => by cases h; simp, by simp [contourLevels]⟩
  · by_cases h0 : v = 0
    · subst h0
      simp [contourLevels]
    · by_cases h1 : v < 0
      · refine ⟨fun ls h => ?_, by simp [contourLevels, h0, h1]⟩
        simp only [contourLevels, h0, h1, if_true, if_false] at h
        cases h
        refine ⟨by simpa using h1, fun x => ?_⟩
        simp only [List.mem_cons, List.not_mem_nil, or_false, Option.some.injEq, BetaValue.level.injEq]
        constructor
        · rintro (rfl | rfl) <;> simp
        · rintro (rfl | rfl) <;> simp
      · refine ⟨fun ls h => ?_, by simp [contourLevels, h0, h1]⟩
        simp only [contourLevels, h0, h1, if_false] at h
        cases h
        have : 0 < v := lt_of_le_of_ne (not_lt.1 h1) (Ne.symm h0)
        refine ⟨by simpa using this, fun x => ?_⟩
        simp only [List.mem_cons, List.not_mem_nil, or_false, Option.some.injEq, BetaValue.level.injEq]
        constructor
        · rintro (rfl | rfl) <;> simp
        · rintro (rfl | rfl) <;> simp
  · simp [contourLevels]

/-- **C80 (figures).** If the sets can be drawn, the domain (if it is a rectangle) has two coordinates, the networks fit the problem and every stored level is a number other
than zero or absent, all three figures are drawn, each certificate with its own levels. -/
theorem C80_figures (dyn : List ℝ → List ℝ) (F : Pt 2 → Pt 2) (hF : ∀ p, dyn (coordList p) = coordList (F p)) (certs : List (Net × Option BetaValue))
    (doms : Dict String PySet) (hd : (plotDomains doms).2 = .ok ()) (lim) (hl : planeLimits doms (-3, 3) (-3, 3) = .ok lim)
    (hs : ∀ c ∈ certs, Shaped 2 c.1) (hb : ∀ c ∈ certs, c.2 = none ∨ ∃ v : ℝ, v ≠ 0 ∧ c.2 = some (.level v)) :
    ∃ fig, benchmarkFigures dyn certs doms = .ok fig ∧ fig.curves = (plotDomains doms).1 ∧ fig.limits = lim ∧
      List.Forall₂ (fun c e => contourLevels c.2 = .ok e.1 ∧ surface c.1 (-5, 5) (-5, 5) = .ok e.2) certs fig.plane ∧
      List.Forall₂ (fun c e => contourLevels c.2 = .ok e.1 ∧ surface c.1 (-3, 3) (-3, 3) = .ok e.2) certs fig.surfaces ∧
      List.Forall₂ (fun c e => lieSurface c.1 dyn (-3, 3) (-3, 3) = .ok e) certs fig.lies := by
  have hlev : ∀ c ∈ certs, ∃ ls, contourLevels c.2 = .ok ls := fun c hc => by
    rcases hb c hc with h | ⟨v, hv, h⟩
    · exact ⟨_, by rw [h]; rfl⟩
    · rw [h]
      by_cases h1 : v < 0
      · exact ⟨[v, 0], by simp [contourLevels, hv, h1]⟩
      · exact ⟨[0, v], by simp [contourLevels, hv, h1]⟩
  have key : ∀ {β : Type} (f : Net × Option BetaValue → Except Err β) (R : Net × Option BetaValue → β → Prop) (l : List (Net × Option BetaValue)),
      (∀ c ∈ l, ∃ b, f c = .ok b ∧ R c b) → ∃ bs, l.mapM f = .ok bs ∧ List.Forall₂ R l bs := by
    intro β f R l
    induction l with
    | nil => exact fun _ => ⟨[], rfl, .nil⟩
    | cons c l ih =>
      intro h
      obtain ⟨b, hb, hR⟩ := h c List.mem_cons_self
      obtain ⟨bs, hbs, hRs⟩ := ih (fun c hc => h c (List.mem_cons_of_mem _ hc))
      exact ⟨b :: bs, by rw [List.mapM_cons, hb, hbs]; rfl, .cons hR hRs⟩
  obtain ⟨P, hP, hP'⟩ := key (fun c => do
      let z ← contourHeights c.1
      let l ← contourLevels c.2
      return (l, z)) (fun c e => contourLevels c.2 = .ok e.1 ∧ surface c.1 (-5, 5) (-5, 5) = .ok e.2) certs (fun c hc => by
    obtain ⟨Z, hZ, -⟩ := C80_surface c.1 (hs c hc) (-5, 5) (-5, 5)
    obtain ⟨ls, hls⟩ := hlev c hc
    exact ⟨(ls, Z), by simp only [contourHeights, hZ, hls, bind, Except.bind, pure, Except.pure], hls, hZ⟩)
  obtain ⟨S, hS, hS'⟩ := key (fun c => do
      let z ← surface c.1 (-3, 3) (-3, 3)
      let l ← contourLevels c.2
      return (l, z)) (fun c e => contourLevels c.2 = .ok e.1 ∧ surface c.1 (-3, 3) (-3, 3) = .ok e.2) certs (fun c hc => by
    obtain ⟨Z, hZ, -⟩ := C80_surface c.1 (hs c hc) (-3, 3) (-3, 3)
    obtain ⟨ls, hls⟩ := hlev c hc
    exact ⟨(ls, Z), by simp only [hZ, hls, bind, Except.bind, pure, Except.pure], hls, hZ⟩)
  obtain ⟨Q, hQ, hQ'⟩ := key (fun c => lieSurface c.1 dyn (-3, 3) (-3, 3)) (fun c e => lieSurface c.1 dyn (-3, 3) (-3, 3) = .ok e) certs (fun c hc => by
    obtain ⟨Z, hZ, -⟩ := C80_lie c.1 (hs c hc) dyn F hF (-3, 3) (-3, 3)
    exact ⟨Z, hZ, hZ⟩)
  refine ⟨⟨(plotDomains doms).1, lim, P, S, Q⟩, ?_, rfl, rfl, hP', hS', hQ'⟩
  rw [benchmarkFigures]
  generalize plotDomains doms = pd at hd ⊢
  obtain ⟨cs, r⟩ := pd
  simp only at hd
  subst hd
  dsimp only
  rw [hP]
  show (planeLimits doms (-3, 3) (-3, 3) >>= _) = _
  rw [hl]
  show Except.bind (List.mapM (m := Except Err) _ certs) _ = _
  rw [hS]
  show Except.bind (List.mapM (m := Except Err) _ certs) _ = _
  rw [hQ]
  rfl

example : (plotDomains [(XD, .sphere [0, 0] 2 none), (XI, .rectangle [0, 0] [1, 1] none)]).2 = .ok () ∧
    planeLimits [(XD, .sphere [0, 0] 2 none), (XI, .rectangle [0, 0] [1, 1] none)] (-3, 3) (-3, 3) = .ok ((-3, 3), (-3, 3)) ∧
    ∀ p : Pt 2, List.map (- ·) (coordList p) = coordList (-p) := ⟨rfl, rfl, fun p => by simp [coordList]⟩

/-- **C80 (no border sampler).** After a Lyapunov run whose domain has no border sampler, no figure is ever drawn: what was stored instead of a level cannot be compared
with zero. -/
theorem C80_samples_raise (dyn : List ℝ → List ℝ) (net : Net) (beta : ℚ) (doms : Dict String PySet) (S : PySet) (hX : Dict.get? doms XD = some S) (hS : WF 2 S)
    (hb : ¬ BorderDrawn S) (g g' : Rng) (v : BetaValue) (hv : estimateBetaOf g g' .LYAPUNOV doms (net, beta) = .ok v) :
    ∃ e, benchmarkFigures dyn [(net, some v)] doms = .error e := by
  have hsv : ∃ rows, v = .samples rows := by
    obtain ⟨h1, h2⟩ := C73_fallback_samples 2 net doms S hX hS hb g g'
    simp only [estimateBetaOf] at hv
    cases hg : S.generateData g' 300 with
    | ok rows => rw [h1 rows hg] at hv; exact ⟨rows, (Except.ok.inj hv).symm⟩
    | error e => rw [h2 e hg] at hv; cases hv
  obtain ⟨rows, rfl⟩ := hsv
  rw [benchmarkFigures]
  generalize plotDomains doms = pd
  obtain ⟨cs, _ | _⟩ := pd
  · exact ⟨_, rfl⟩
  · cases hz : contourHeights net with
    | error e => exact ⟨e, by simp only [List.mapM_cons, hz, bind, Except.bind]⟩
    | ok z => exact ⟨.runtimeError, by simp only [List.mapM_cons, hz, contourLevels, bind, Except.bind]⟩

example (g g' : Rng) : WF 2 (.setMinus (.rectangle [-1, -1] [1, 1] none) (.sphere [0, 0] (1/10) none)) ∧
    ¬ BorderDrawn (.setMinus (.rectangle [-1, -1] [1, 1] none) (.sphere [0, 0] (1/10) none)) ∧
    ∃ v, estimateBetaOf g g' .LYAPUNOV [(XD, .setMinus (.rectangle [-1, -1] [1, 1] none) (.sphere [0, 0] (1/10) none))] (exampleNet, 0) = .ok v := by
  obtain ⟨rows, h⟩ := exMinus_samples g g'
  exact ⟨by norm_num [WF, selCount, selOk, noSel], by simp [BorderDrawn], _, h⟩

/-- **C80 (window).** For a rectangular domain the phase plane shows exactly the domain; but the dashed lines come from heights over `[-5, 5]²` only. -/
theorem C80_window (doms : Dict String PySet) (a b c d : ℚ) (ds) (hX : Dict.get? doms XD = some (.rectangle [a, c] [b, d] ds)) (xr yr : ℚ × ℚ) :
    planeLimits doms xr yr = .ok ((a, b), (c, d)) ∧
    ∀ i < 100, ∀ j < 100, ∀ k, -5 ≤ gridPoint (-5, 5) (-5, 5) i j k ∧ gridPoint (-5, 5) (-5, 5) i j k ≤ 5 := by
  constructor
  · rw [planeLimits, hX]; rfl
  · intro i hi j hj k
    have hi' : (i : ℝ) ≤ 99 := by exact_mod_cast Nat.le_of_lt_succ hi
    have hj' : (j : ℝ) ≤ 99 := by exact_mod_cast Nat.le_of_lt_succ hj
    have hi0 : (0 : ℝ) ≤ i := Nat.cast_nonneg i
    have hj0 : (0 : ℝ) ≤ j := Nat.cast_nonneg j
    fin_cases k <;> refine ⟨?_, ?_⟩ <;> norm_num [gridPoint] <;> first | positivity | linarith

example : Dict.get? [(XD, PySet.rectangle [-10, -2] [10, 2] none)] XD = some (.rectangle [-10, -2] [10, 2] none) := rfl

/-- **C80 (ROA level).** The ROA level drawn is the stored `beta`, one tenth below the level that was verified. -/
theorem C80_roa_level (g g' : Rng) (doms : Dict String PySet) (net : Net) (beta : ℚ) (hb : 0 < beta) :
    ∃ v, estimateBetaOf g g' .ROA doms (net, beta) = .ok v ∧ contourLevels (some v) = .ok [0, (beta : ℝ)] := by
  have hb' : (0 : ℝ) < beta := by exact_mod_cast hb
  exact ⟨_, rfl, by simp [contourLevels, hb.ne', not_lt.2 hb'.le]⟩

end Fossil

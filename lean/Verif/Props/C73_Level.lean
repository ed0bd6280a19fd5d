/- C73: the level stored with a verified Lyapunov function, and the runs lost while computing it. -/
import Verif.Estimate
import Verif.Props.C25_Border
import Verif.Props.C49_Training
import Verif.Props.C70_Supported

namespace Fossil
open Spec

/-- The sets whose border can be sampled: boxes, balls, ellipses and tori, unions of such sets, complements of such sets. -/
def Spec.BorderDrawn : PySet → Prop
  | .rectangle .. | .openRectangle .. | .sphere .. | .openSphere .. | .ellipse .. | .torus .. => True
  | .union S T => BorderDrawn S ∧ BorderDrawn T
  | .compl S => BorderDrawn S
  | .posSphere .. | .bean .. | .empty | .reals _ | .inter .. | .setMinus .. => False

/-- Every part of the set speaks about all `n` coordinates (no proper `dim_select`). -/
def Spec.AllCoords (n : ℕ) : PySet → Prop
  | .sphere _ _ ds | .openSphere _ _ ds | .ellipse _ _ _ ds | .torus _ _ _ ds => selCount n ds = n
  | .union S T => AllCoords n S ∧ AllCoords n T
  | .compl S => AllCoords n S
  | .rectangle .. | .openRectangle .. | .posSphere .. | .bean .. | .empty | .reals _ | .inter .. | .setMinus .. => True

/-- How deeply unions are nested. -/
def Spec.unionDepth : PySet → ℕ
  | .union S T => max (unionDepth S) (unionDepth T) + 1
  | .compl S => unionDepth S
  | _ => 0

theorem round_width {g : Rng} {c : List ℚ} {R : ℝ} {b : ℕ} {o : Bool} {r : List ℝ} (h : r ∈ roundInitData g c R b o) :
    r.length = c.length := by
  unfold roundInitData at h
  by_cases h1 : c.length = 1
  · rw [if_pos h1] at h
    obtain ⟨i, -, rfl⟩ := mem_mkRows.1 h
    simp [h1]
  rw [if_neg h1] at h
  by_cases h2 : c.length = 2
  · rw [if_pos h2] at h
    simp only [circleInitData, List.mem_append] at h
    rcases h with h | h <;>
    · obtain ⟨i, -, rfl⟩ := mem_mkRows.1 h
      rw [length_offset (by simp [polar, h2]), h2]
  rw [if_neg h2] at h
  by_cases h3 : c.length = 3
  · rw [if_pos h3] at h
    obtain ⟨i, -, rfl⟩ := mem_mkRows.1 h
    rw [length_offset (by simp [spherical, h3]), h3]
  rw [if_neg h3] at h
  obtain ⟨i, -, rfl⟩ := mem_mkRows.1 h
  simp

/-- What a batch of border samples looks like. -/
structure BorderBatch (n : ℕ) (S : PySet) (b : ℕ) (rows : Rows) : Prop where
  wide : AllCoords n S → ∀ r ∈ rows, r.length = n
  narrow : 2 ^ unionDepth S ≤ b → ¬ AllCoords n S → ∃ r ∈ rows, r.length ≠ n
  some : 2 ^ unionDepth S ≤ b → rows ≠ []

theorem leaf_batch {n : ℕ} {S : PySet} {w b : ℕ} {rows : Rows} (hd : unionDepth S = 0) (hw : ∀ r ∈ rows, r.length = w) (hb : rows.length = b)
    (ha : AllCoords n S ↔ w = n) : BorderBatch n S b rows := by
  have hne : 2 ^ unionDepth S ≤ b → rows ≠ [] := by
    intro h
    rw [hd] at h
    intro e
    rw [e] at hb
    simp at hb h
    omega
  refine ⟨fun h r hr => (hw r hr).trans (ha.1 h), fun h1 h2 => ?_, hne⟩
  obtain ⟨r, hr⟩ := List.exists_mem_of_ne_nil _ (hne h1)
  exact ⟨r, hr, fun e => h2 (ha.2 ((hw r hr).symm.trans e))⟩

/-- `sample_border` returns exactly for the sets of `BorderDrawn`, otherwise it raises NotImplementedError. -/
theorem sampleBorder_wf (n : ℕ) (S : PySet) (hS : WF n S) (g : Rng) (b : ℕ) :
    (BorderDrawn S → ∃ rows, S.sampleBorder g b = .ok rows ∧ BorderBatch n S b rows) ∧
    (¬ BorderDrawn S → S.sampleBorder g b = .error .notImplemented) := by
  induction S generalizing g b with
  | rectangle lb ub ds | openRectangle lb ub ds =>
    obtain ⟨h1, h2, h3⟩ := hS
    refine ⟨fun _ => ⟨_, by rw [PySet.sampleBorder, rectSampleBorder, if_pos (h1.trans h2.symm)], leaf_batch (w := n) rfl ?_ ?_ (by simp [AllCoords])⟩,
      fun h => absurd trivial h⟩
    · intro r hr
      obtain ⟨u, hu, rfl⟩ := List.mem_map.1 hr
      have := round_width hu
      simp only [List.length_replicate, h1] at this
      simp only [cubeMove, length_mkRow, sphereToCube]
      split <;> simpa using this
    · simp [length_roundInitData]
  | sphere c r ds | openSphere c r ds =>
    obtain ⟨h1, h2, h3⟩ := hS
    exact ⟨fun _ => ⟨_, rfl, leaf_batch (w := c.length) rfl (fun r hr => round_width hr) (length_roundInitData _ _ _ _ _) (by rw [h1]; rfl)⟩,
      fun h => absurd trivial h⟩
  | torus c ro ri ds =>
    obtain ⟨h1, h2, h3⟩ := hS
    exact ⟨fun _ => ⟨_, rfl, leaf_batch (w := c.length) rfl (fun r hr => round_width hr) (length_roundInitData _ _ _ _ _) (by rw [h1]; rfl)⟩,
      fun h => absurd trivial h⟩
  | ellipse a c r ds =>
    obtain ⟨h1, h2, h3, h4⟩ := hS
    refine ⟨fun _ => ⟨_, by rw [PySet.sampleBorder, nDimEllipseInitData, if_pos (h2.trans h1.symm)], leaf_batch (w := c.length) rfl ?_ ?_ (by rw [h1]; rfl)⟩,
      fun h => absurd trivial h⟩
    · intro r hr
      obtain ⟨i, -, rfl⟩ := mem_mkRows.1 hr
      simp [h1]
    · simp
  | union S T ihS ihT =>
    obtain ⟨s1, s2⟩ := ihS hS.1 (g.sub 0) (b / 2)
    obtain ⟨t1, t2⟩ := ihT hS.2 (g.sub 1) (b / 2)
    constructor
    · rintro ⟨hs, ht⟩
      obtain ⟨x, hx, bx⟩ := s1 hs
      obtain ⟨y, hy, bY⟩ := t1 ht
      refine ⟨x ++ y, by simp only [PySet.sampleBorder, hx, hy, Bind.bind, Except.bind, pure, Except.pure], ?_⟩
      have hx2 : 2 ^ unionDepth (.union S T) ≤ b → 2 ^ unionDepth S ≤ b / 2 := by
        intro h
        rw [Nat.le_div_iff_mul_le (by omega), ← pow_succ]
        refine le_trans (Nat.pow_le_pow_right (by omega) ?_) h
        simp [unionDepth]
      have hy2 : 2 ^ unionDepth (.union S T) ≤ b → 2 ^ unionDepth T ≤ b / 2 := by
        intro h
        rw [Nat.le_div_iff_mul_le (by omega), ← pow_succ]
        refine le_trans (Nat.pow_le_pow_right (by omega) ?_) h
        simp [unionDepth]
      refine ⟨fun h r hr => ?_, fun h1 h2 => ?_, fun h e => ?_⟩
      · rcases List.mem_append.1 hr with hr | hr
        · exact bx.wide h.1 r hr
        · exact bY.wide h.2 r hr
      · by_cases hS' : AllCoords n S
        · obtain ⟨r, hr, hn⟩ := bY.narrow (hy2 h1) (fun h => h2 ⟨hS', h⟩)
          exact ⟨r, List.mem_append_right _ hr, hn⟩
        · obtain ⟨r, hr, hn⟩ := bx.narrow (hx2 h1) hS'
          exact ⟨r, List.mem_append_left _ hr, hn⟩
      · exact bx.some (hx2 h) (List.append_eq_nil_iff.1 e).1
    · intro h
      by_cases hs : BorderDrawn S
      · obtain ⟨x, hx, -⟩ := s1 hs
        have ht := t2 fun ht => h ⟨hs, ht⟩
        simp only [PySet.sampleBorder, hx, ht, Bind.bind, Except.bind]
      · simp only [PySet.sampleBorder, s2 hs, Bind.bind, Except.bind]
  | compl S ih =>
    obtain ⟨s1, s2⟩ := ih hS g b
    refine ⟨fun h => ?_, fun h => s2 h⟩
    obtain ⟨x, hx, bx⟩ := s1 h
    exact ⟨x, hx, bx.wide, bx.narrow, bx.some⟩
  | posSphere | bean | empty | reals | inter | setMinus => exact ⟨fun h => h.elim, fun _ => rfl⟩

theorem minIdx_spec : ∀ (C : List ℝ), C ≠ [] → ∃ v k, minIdx C = .ok (v, k) ∧ C[k]? = some v ∧ ∀ c ∈ C, v ≤ c := by
  intro C
  induction C with
  | nil => intro h; exact absurd rfl h
  | cons c C ih =>
    intro _
    cases C with
    | nil => exact ⟨c, 0, rfl, rfl, by simp⟩
    | cons d C =>
      obtain ⟨v, k, h1, h2, h3⟩ := ih (by simp)
      by_cases hc : v < c
      · refine ⟨v, k + 1, by simp [minIdx, h1, hc], by simpa using h2, ?_⟩
        intro x hx
        rcases List.mem_cons.1 hx with rfl | hx
        · exact hc.le
        · exact h3 x hx
      · refine ⟨c, 0, by simp [minIdx, h1, hc], rfl, ?_⟩
        intro x hx
        rcases List.mem_cons.1 hx with rfl | hx
        · exact le_rfl
        · exact (not_lt.1 hc).trans (h3 x hx)

/-- The network's own output (the certificate without the quadratic factor and without rounding). -/
theorem forward_value {n : ℕ} {net : Net} (hs : Shaped n net) (p : Pt n) : net.forward (coordList p) = .ok (certValue (-1) false net p) := by
  obtain ⟨last, r, nn, _, _, hf, _⟩ := getRowCT_spec hs false (coordList p) (coordList p) (by simp [coordList]) (by simp [coordList])
  rw [certValue_neg (shaped_ne hs) false p hf, hf]; simp

theorem forward_rows {n : ℕ} {net : Net} (hs : Shaped n net) (P : List (Pt n)) :
    (P.map coordList).mapM net.forward = .ok (P.map (certValue (-1) false net)) := by
  induction P with
  | nil => rfl
  | cons p P ih => simp only [List.map_cons, List.mapM_cons, forward_value hs, ih, bind, Except.bind, pure, Except.pure]

/-- **C73 (minimum over samples).** `compute_minimum` over a non-empty sample returns a sample and the network's value there, and no sample has a smaller
value. -/
theorem C73_compute_minimum (n : ℕ) (net : Net) (hs : Shaped n net) (S : List (Pt n)) (h : S ≠ []) :
    ∃ v, ∃ p ∈ S, net.computeMinimum (S.map coordList) = .ok (v, coordList p) ∧ v = certValue (-1) false net p ∧
      ∀ q ∈ S, v ≤ certValue (-1) false net q := by
  obtain ⟨v, k, h1, h2, h3⟩ := minIdx_spec (S.map (certValue (-1) false net)) (by simpa using h)
  rw [List.getElem?_map] at h2
  obtain ⟨p, hp, rfl⟩ := Option.map_eq_some_iff.1 h2
  refine ⟨_, p, List.mem_of_getElem? hp, ?_, rfl, fun q hq => h3 _ (List.mem_map.2 ⟨q, hq, rfl⟩)⟩
  have hw : ∀ r ∈ S.map coordList, r.length = net.inputSize := by
    intro r hr
    obtain ⟨q, -, rfl⟩ := List.mem_map.1 hr
    rw [hs.1]
    simp [coordList]
  simp only [Net.computeMinimum, Net.forwardBatch, if_pos hw, forward_rows hs, h1, bind, Except.bind, pure, Except.pure, at?, List.getElem?_map, hp, Option.map_some]

/-- **C73 (no samples).** There is no minimum over no samples: `compute_minimum` raises, for every network. -/
theorem C73_compute_minimum_empty (net : Net) : net.computeMinimum [] = .error .indexError := by
  simp [Net.computeMinimum, Net.forwardBatch, minIdx, bind, Except.bind, pure, Except.pure]

example : Shaped 2 exampleNet ∧ ([![1, 2], ![0, 1]] : List (Pt 2)) ≠ [] := ⟨exampleNet_shaped, by simp⟩

theorem rows_points {n : ℕ} {rows : Rows} (h : ∀ r ∈ rows, r.length = n) : ∃ P : List (Pt n), P.map coordList = rows := by
  induction rows with
  | nil => exact ⟨[], rfl⟩
  | cons r rows ih =>
    obtain ⟨P, hP⟩ := ih fun r hr => h r (List.mem_cons_of_mem _ hr)
    obtain ⟨p, hp⟩ := exists_pt_of_length (h r List.mem_cons_self)
    exact ⟨p :: P, by simp [hP, coordList, hp]⟩

theorem getE_of_get? {α : Type} {d : Dict String α} {k : String} {a : α} (h : Dict.get? d k = some a) : d.getE k = .ok a := by
  simp [Dict.getE, h]

/-- **C73 (the level of a domain whose border can be sampled).** For every network of the right shape and every domain built from boxes, balls, ellipses and
tori with unions (nested at most eight deep) and complements, in which every part speaks about all coordinates, and for all draws: the stored level is the
value of the network (unrounded, without the quadratic factor) at one of the 300 border samples, and the least such value. -/
theorem C73_level_value (n : ℕ) (net : Net) (hs : Shaped n net) (doms : Dict String PySet) (S : PySet) (hX : Dict.get? doms XD = some S) (hS : WF n S)
    (hb : BorderDrawn S) (ha : AllCoords n S) (hd : unionDepth S ≤ 8) (g g' : Rng) :
    ∃ v rows, lyapEstimateBeta g g' doms net = .ok (.level v) ∧ S.sampleBorder g 300 = .ok rows ∧
      (∃ p : Pt n, coordList p ∈ rows ∧ v = certValue (-1) false net p) ∧ ∀ q : Pt n, coordList q ∈ rows → v ≤ certValue (-1) false net q := by
  obtain ⟨rows, hr, hB⟩ := (sampleBorder_wf n S hS g 300).1 hb
  have hpow : 2 ^ unionDepth S ≤ 300 := (Nat.pow_le_pow_right (by omega) hd).trans (by norm_num)
  obtain ⟨P, rfl⟩ := rows_points (hB.wide ha)
  have hP : P ≠ [] := fun e => hB.some hpow (by rw [e]; rfl)
  obtain ⟨v, p, hp, hm, hv, hmin⟩ := C73_compute_minimum n net hs P hP
  refine ⟨v, _, ?_, hr, ⟨p, List.mem_map_of_mem hp, hv⟩, ?_⟩
  · simp only [lyapEstimateBeta, getE_of_get? hX, hr, hm, Bind.bind, Except.bind]
  · intro q hq
    obtain ⟨q', hq', e⟩ := List.mem_map.1 hq
    have : q' = q := List.ofFn_injective e
    exact this ▸ hmin q' hq'

/-- **C73 (selected coordinates).** If some part of the domain selects a proper part of the coordinates, the border samples do not fit the network and the
call raises RuntimeError, whatever the draws. -/
theorem C73_dim_select_raises (n : ℕ) (net : Net) (hs : Shaped n net) (doms : Dict String PySet) (S : PySet) (hX : Dict.get? doms XD = some S) (hS : WF n S)
    (hb : BorderDrawn S) (ha : ¬ AllCoords n S) (hd : unionDepth S ≤ 8) (g g' : Rng) : lyapEstimateBeta g g' doms net = .error .runtimeError := by
  obtain ⟨rows, hr, hB⟩ := (sampleBorder_wf n S hS g 300).1 hb
  have hpow : 2 ^ unionDepth S ≤ 300 := (Nat.pow_le_pow_right (by omega) hd).trans (by norm_num)
  obtain ⟨r, hm, hne⟩ := hB.narrow hpow ha
  have : ¬ ∀ r ∈ rows, r.length = net.inputSize := fun h => hne ((h r hm).trans hs.1)
  simp only [lyapEstimateBeta, getE_of_get? hX, hr, Net.computeMinimum, Net.forwardBatch, if_neg this, Bind.bind, Except.bind]

/-- **C73 (domains without border sampler).** For every other domain the stored "level" is the tensor of 300 samples of the domain, and the call raises
whatever `generate_data` raises. -/
theorem C73_fallback_samples (n : ℕ) (net : Net) (doms : Dict String PySet) (S : PySet) (hX : Dict.get? doms XD = some S) (hS : WF n S)
    (hb : ¬ BorderDrawn S) (g g' : Rng) :
    (∀ rows, S.generateData g' 300 = .ok rows → lyapEstimateBeta g g' doms net = .ok (.samples rows)) ∧
    ∀ e, S.generateData g' 300 = .error e → lyapEstimateBeta g g' doms net = .error e := by
  have hr := (sampleBorder_wf n S hS g 300).2 hb
  constructor
  · intro rows h
    simp only [lyapEstimateBeta, getE_of_get? hX, hr, h, Bind.bind, Except.bind, pure, Except.pure]
  · intro e h
    simp only [lyapEstimateBeta, getE_of_get? hX, hr, h, Bind.bind, Except.bind]

/-- Boxes, balls: a level; a ball in selected coordinates: RuntimeError; an intersection: samples; all of space: NotImplementedError. -/
example (g g' : Rng) : ∃ v, lyapEstimateBeta g g' [(XD, .union (.rectangle [-1, -1] [1, 1] none) (.compl (.sphere [0, 0] 2 none)))] exampleNet = .ok (.level v) := by
  obtain ⟨v, _, h, -⟩ := C73_level_value 2 exampleNet exampleNet_shaped [(XD, .union (.rectangle [-1, -1] [1, 1] none) (.compl (.sphere [0, 0] 2 none)))] _ rfl
    (by norm_num [WF, noSel, selCount, selOk]) (by simp [BorderDrawn]) (by simp [AllCoords, selCount]) (by simp [unionDepth]) g g'
  exact ⟨v, h⟩

example (g g' : Rng) : lyapEstimateBeta g g' [(XD, .sphere [0] 2 (some [1]))] exampleNet = .error .runtimeError :=
  C73_dim_select_raises 2 exampleNet exampleNet_shaped _ _ rfl (by norm_num [WF, noSel, selCount, selOk]) (by simp [BorderDrawn]) (by simp [AllCoords, selCount]) (by simp [unionDepth]) g g'

example (g g' : Rng) : lyapEstimateBeta g g' [(XD, .reals 2)] exampleNet = .error .notImplemented :=
  (C73_fallback_samples 2 exampleNet _ (.reals 2) rfl (by simp [WF]) (by simp [BorderDrawn]) g g').2 _ rfl

theorem exMinus_samples (g g' : Rng) : ∃ rows, lyapEstimateBeta g g' [(XD, .setMinus (.rectangle [-1, -1] [1, 1] none) (.sphere [0, 0] (1/10) none))] exampleNet = .ok (.samples rows) := by
  have h : ∀ rows : Rows, (∀ r ∈ rows, r.length = 2) → ∃ out, filterRows (.sphere [0, 0] (1/10) none) false rows = .ok out := by
    intro rows
    induction rows with
    | nil => intro _; exact ⟨[], rfl⟩
    | cons r rows ih =>
      intro hw
      obtain ⟨out, ho⟩ := ih fun r hr => hw r (List.mem_cons_of_mem _ hr)
      obtain ⟨P, hP⟩ : ∃ P, (PySet.sphere [0, 0] (1/10) none).checkContainment r = .ok P := by
        have := hw r List.mem_cons_self
        match r, this with
        | [a, b], _ => exact ⟨_, rfl⟩
      exact ⟨_, by simp only [filterRows, hP, ho, Bind.bind, Except.bind, pure, Except.pure]; rfl⟩
  obtain ⟨rows, hg, hw⟩ : ∃ rows, (PySet.rectangle [-1, -1] [1, 1] none).generateData g' 300 = .ok rows ∧ ∀ r ∈ rows, r.length = 2 := by
    refine ⟨_, rfl, fun r hr => ?_⟩
    obtain ⟨i, -, rfl⟩ := mem_mkRows.1 hr
    simp
  obtain ⟨out, ho⟩ := h rows hw
  refine ⟨out, (C73_fallback_samples 2 exampleNet _ _ rfl (by norm_num [WF, noSel, selCount, selOk]) (by simp [BorderDrawn]) g g').1 out ?_⟩
  rw [PySet.generateData, hg]
  exact ho

/-- **C73 (the level touches the border).** Where moreover the border sampler is right (`C25_border_samples_partial`: boxes in dimension at least
two, balls and tori in dimension two or three or of radius one, ellipses, unions and complements of these), the stored level is the value of the network at a
point of the border: it is never below the minimum over the border. It need not be that minimum: see
`C73_no_draw_suffices`. -/
theorem C73_level_on_border (n : ℕ) (net : Net) (hs : Shaped n net) (doms : Dict String PySet) (S : PySet) (hX : Dict.get? doms XD = some S) (hS : WF n S)
    (hb : BorderDrawn S) (ha : AllCoords n S) (hd : unionDepth S ≤ 8) (hB : BorderSampleable n S) (g g' : Rng) (hg : g.NonzeroRows n) :
    ∃ v, lyapEstimateBeta g g' doms net = .ok (.level v) ∧ ∃ p ∈ docBorder n S, v = certValue (-1) false net p := by
  obtain ⟨v, rows, h1, h2, ⟨p, hp, hv⟩, -⟩ := C73_level_value n net hs doms S hX hS hb ha hd g g'
  obtain ⟨q, hq, hm⟩ := C25_border_samples_partial n S hS hB g hg 300 rows h2 _ hp
  have : q = p := List.ofFn_injective hq
  exact ⟨v, h1, p, this ▸ hm, hv⟩

example (g g' : Rng) (hg : g.NonzeroRows 2) : ∃ v, lyapEstimateBeta g g' [(XD, .sphere [1, 0] 2 none)] exampleNet = .ok (.level v) ∧
    ∃ p ∈ docBorder 2 (.sphere [1, 0] 2 none), v = certValue (-1) false exampleNet p :=
  C73_level_on_border 2 exampleNet exampleNet_shaped _ _ rfl (by norm_num [WF, noSel, selCount, selOk]) (by simp [BorderDrawn]) (by simp [AllCoords, selCount])
    (by simp [unionDepth]) (by simp [BorderSampleable, noSel]) g g' hg

/-- V(x) = (m x₀ - x₁)² + x₀² + x₁². -/
def skewNet (m : ℕ) : Net := ⟨2, [⟨[[m, -1], [1, 0], [0, 1]], none⟩, ⟨[[1, 1, 1]], none⟩], [.square]⟩

theorem skewNet_shaped (m : ℕ) : Shaped 2 (skewNet m) := ⟨rfl, by simp [skewNet, shapedFrom, outWidth], by simp [skewNet], ⟨_, rfl, rfl⟩⟩

theorem skewNet_value (m : ℕ) (x : Pt 2) : certValue (-1) false (skewNet m) x = (m * x 0 - x 1) ^ 2 + x 0 ^ 2 + x 1 ^ 2 := by
  have h : (skewNet m).forward (coordList x) = .ok ((m * x 0 - x 1) ^ 2 + x 0 ^ 2 + x 1 ^ 2) := by
    simp [skewNet, Net.forward, coordList, hiddenForward, Layer.apply, dotR, at?, bind, Except.bind, Act.forward]
    ring
  rw [certValue_neg (by simp [skewNet]) false x h]
  simp

/-- **C73 (no draw of the samples suffices).** The sublevel set of the stored level need not lie in the domain. For the unit disc and whatever 300 points are
drawn there is a network computing a positive definite quadratic form (hence a Lyapunov function of x' = -x, accepted by any exact solver) for which the
stored level is so large that its sublevel set contains points outside the disc. -/
theorem C73_no_draw_suffices (g g' : Rng) :
    ∃ net, Shaped 2 net ∧ (∀ (x : Pt 2) (s : ℝ), certValue (-1) false net (s • x) = s ^ 2 * certValue (-1) false net x) ∧
      (∀ x : Pt 2, x 0 ^ 2 + x 1 ^ 2 ≤ certValue (-1) false net x) ∧
      ∃ v, lyapEstimateBeta g g' [(XD, .sphere [0, 0] 1 none)] net = .ok (.level v) ∧
        ∃ q : Pt 2, q ∉ docSet 2 (.sphere [0, 0] 1 none) ∧ certValue (-1) false net q ≤ v := by
  have hWF : WF 2 (.sphere [0, 0] 1 none) := by norm_num [WF, selCount, selOk]
  obtain ⟨rows, hr, hB⟩ := (sampleBorder_wf 2 (.sphere [0, 0] 1 none) hWF g 300).1 trivial
  obtain ⟨P, hP⟩ := rows_points (hB.wide (by simp [AllCoords, selCount]))
  have hunit : ∀ p ∈ P, p 0 ^ 2 + p 1 ^ 2 = 1 := by
    intro p hp
    have hr' : (PySet.sphere [0, 0] 1 none).sampleBorder ⟨g.rand, fun _ _ _ => 1⟩ 300 = .ok rows := by
      rw [← hr]
      simp [PySet.sampleBorder, roundInitData, circleInitData]
    obtain ⟨q, hq, hm⟩ := C25_border_samples_partial 2 (.sphere [0, 0] 1 none) hWF (by simp [BorderSampleable, noSel]) ⟨g.rand, fun _ _ _ => 1⟩
      (fun _ _ => ⟨0, by norm_num, one_ne_zero⟩) 300 rows hr' (coordList p) (hP ▸ List.mem_map_of_mem hp)
    have : q = p := List.ofFn_injective hq
    subst this
    have h1 : euclid (coords none q) (reals [0, 0]) = 1 := by simpa [docBorder] using hm
    simp [euclid, coords, reals] at h1
    exact h1
  obtain ⟨m, hm⟩ : ∃ m : ℕ, ∀ p ∈ P, (m : ℝ) * p 0 - p 1 ≠ 0 := by
    classical
    have hfin : (Set.range fun m : ℕ => (m : ℝ)).Infinite := Set.infinite_range_of_injective Nat.cast_injective
    obtain ⟨y, ⟨m, rfl⟩, hy⟩ := hfin.exists_notMem_finset ((P.map fun p => p 1 / p 0).toFinset)
    refine ⟨m, fun p hp e => hy ?_⟩
    simp only [List.mem_toFinset, List.mem_map]
    refine ⟨p, hp, ?_⟩
    have h0 : p 0 ≠ 0 := by
      intro h0
      have hu := hunit p hp
      rw [h0] at e hu
      have h1 : p 1 = 0 := by linarith
      rw [h1] at hu
      norm_num at hu
    rw [div_eq_iff h0]
    linarith
  obtain ⟨v, rows', h1, h2, ⟨p, hp, hv⟩, -⟩ := C73_level_value 2 (skewNet m) (skewNet_shaped m) [(XD, .sphere [0, 0] 1 none)] _ rfl hWF trivial
    (by simp [AllCoords, selCount]) (by simp [unionDepth]) g g'
  have hp' : p ∈ P := by
    have e : rows' = rows := Except.ok.inj (h2.symm.trans hr)
    rw [e, ← hP] at hp
    obtain ⟨q, hq, e⟩ := List.mem_map.1 hp
    have : q = p := List.ofFn_injective e
    exact this ▸ hq
  have hv1 : 1 < v := by
    rw [hv, skewNet_value]
    have := hunit p hp'
    have := sq_pos_of_ne_zero (hm p hp')
    linarith
  refine ⟨skewNet m, skewNet_shaped m, ?_, ?_, v, h1, ?_⟩
  · intro x s
    rw [skewNet_value, skewNet_value]
    simp
    ring
  · intro x
    rw [skewNet_value]
    have := sq_nonneg ((m : ℝ) * x 0 - x 1)
    linarith
  · set t := Real.sqrt (v / (1 + (m : ℝ) ^ 2))
    have hpos : (0 : ℝ) < 1 + (m : ℝ) ^ 2 := by positivity
    have ht : t ^ 2 * (1 + (m : ℝ) ^ 2) = v := by
      rw [Real.sq_sqrt (div_nonneg (by linarith) hpos.le)]
      field_simp
    refine ⟨![t, t * m], ?_, ?_⟩
    · intro h
      have h' : euclid (coords none (![t, t * m] : Pt 2)) (reals [0, 0]) ≤ 1 := by simpa [docSet] using h
      simp [euclid, coords, reals] at h'
      nlinarith
    · rw [skewNet_value]
      simp
      nlinarith

/-! ### the runs -/

/-- **C73 (verified and lost).** If the domain of a Lyapunov problem selects coordinates in some part, or has no border sampler and no sampler (all of space,
the bean, an intersection with such a set...), no run reports a certificate: the verified one is lost to the exception raised while the level is computed. For
all solvers, learners, draws, data and iteration limits. -/
theorem C73_verified_lost {R K : Type} (w : World R K (Net × ℚ)) (c : SynthCfg) (discrete : Bool)
    (learn : LoopState (Net × ℚ) K (List ℚ) Term → Except Err ((Net × ℚ) × K)) (g g' : Rng) (hct : c.cert = .LYAPUNOV)
    (hlearn : ∀ st n k, learn st = .ok (n, k) → Shaped c.nVars n.1)
    (S : PySet) (hX : Dict.get? c.domains XD = some S) (hS : WF c.nVars S)
    (hbad : (BorderDrawn S ∧ ¬ AllCoords c.nVars S ∧ unionDepth S ≤ 8) ∨ (¬ BorderDrawn S ∧ ∃ e, S.generateData g' 300 = .error e))
    (net : Net × ℚ) (ctrl : K) (data : Dict String (List (List ℚ))) (out) :
    Solves c.loop (singleComponents (w.withEstimate g g' c) c discrete learn) net ctrl data out → out.found = false := by
  rintro ⟨k, st, -, hb⟩
  obtain ⟨n, kk, V, Vdot, found, cex, traj, st2, h1, -, -, -, rfl, h⟩ := loopBody_inv hb
  have hsh := hlearn st n kk h1
  have hest : ∃ e, (singleComponents (w.withEstimate g g' c) c discrete learn).estimateBeta n = .error e := by
    show ∃ e, (estimateBetaOf g g' c.cert c.domains n).map (fun _ => ()) = .error e
    rw [hct]
    show ∃ e, (lyapEstimateBeta g g' c.domains n.1).map (fun _ => ()) = .error e
    rcases hbad with ⟨hb, ha, hd⟩ | ⟨hb, e, he⟩
    · rw [C73_dim_select_raises c.nVars n.1 hsh c.domains S hX hS hb ha hd g g']
      exact ⟨_, rfl⟩
    · rw [(C73_fallback_samples c.nVars n.1 c.domains S hX hS hb g g').2 e he]
      exact ⟨_, rfl⟩
  obtain ⟨e, he⟩ := hest
  cases found with
  | false =>
    simp only [Bool.false_eq_true, if_false] at h
    split at h
    · rw [h.2]; rfl
    · split at h
      · rw [h.2]; rfl
      · exact absurd h.1 (by simp)
  | true =>
    simp only [if_true] at h
    unfold processCertificate at h
    have hif : (if c.loop.cert = .LYAPUNOV ∨ c.loop.cert = .ROA then
        (singleComponents (w.withEstimate g g' c) c discrete learn).estimateBeta (st.after n kk V Vdot true cex traj).net else .ok ()) = .error e := by
      exact (if_pos (Or.inl hct)).trans he
    simp only [hif] at h
    cases h

/-- **C73 (a Lyapunov run never raises).** For a domain whose border can be sampled, with all coordinates in every part, the hypothesis of `C70_run_total`
about the level holds: every run returns, whatever is drawn. -/
theorem C73_run_total {R K : Type} (w : World R K (Net × ℚ)) (c : SynthCfg) (discrete : Bool)
    (learn : LoopState (Net × ℚ) K (List ℚ) Term → Except Err ((Net × ℚ) × K)) (g g' : Rng)
    (hlib : c.lib = .z3 ∨ c.lib = .dreal) (hct : c.cert = .LYAPUNOV ∨ c.cert = .ROA) (hN : 0 ≤ c.maxIters)
    (hsets : UsableSets c.nVars c.domains) (hlab : ∀ l ∈ setsOf c.cert, ∃ S, Dict.get? c.domains l = some S)
    (hXD : c.cert = .LYAPUNOV → ∀ S, Dict.get? c.domains XD = some S → BorderDrawn S ∧ AllCoords c.nVars S ∧ unionDepth S ≤ 8)
    (hrnd : discrete = true → c.rounding ≠ 0)
    (hdyn : ∀ k, (w.dynamics k).length = c.nVars)
    (hval : ∀ i k φ, w.backend.isSat (w.oracle i k φ) = true → ∀ v < c.nVars, ∃ q, w.backend.value (w.oracle i k φ) v = .ok q)
    (hlearn : ∀ st, Usable c.lib c.nVars st.net.1 → (∀ l ∈ queryLabels c.cert, l ∈ Dict.keys st.S) →
      ∃ n k, learn st = .ok (n, k) ∧ Usable c.lib c.nVars n.1)
    (hcons : ∀ i n k cex, ∃ traj, w.consolidate i n k cex = .ok traj ∧ ((∀ e ∈ cex, hasLie e.1 = true → e.2 = []) → traj = []))
    (net : Net × ℚ) (ctrl : K) (S : Dict String (List (List ℚ))) (hnet : Usable c.lib c.nVars net.1)
    (hS : ∀ l ∈ queryLabels c.cert, l ∈ Dict.keys S) (hD : ∀ l ∈ Dict.keys S, hasLie l = true → l = XD) :
    ∃ out, Solves c.loop (singleComponents (w.withEstimate g g' c) c discrete learn) net ctrl S out ∧ (out.iters : ℤ) ≤ c.maxIters + 1 := by
  refine C70_run_total (w.withEstimate g g' c) c discrete learn hlib ?_ hN hsets hlab hrnd hdyn hval hlearn hcons ?_ ?_ net ctrl S hnet hS hD
  · rcases hct with h | h <;> rw [h] <;> refine ⟨?_, ?_, ?_⟩ <;> intro h' <;> cases h'
  · intro _ n hn
    show (estimateBetaOf g g' c.cert c.domains n).map (fun _ => ()) = .ok ()
    rcases hct with h | h
    · obtain ⟨T, hT⟩ := hlab XD (by rw [h]; simp [setsOf])
      obtain ⟨h1, h2, h3⟩ := hXD h T hT
      obtain ⟨v, _, hv, -⟩ := C73_level_value c.nVars n.1 hn.1 c.domains T hT (hsets _ (Dict.get?_eq_some_mem hT)).1 h1 h2 h3 g g'
      rw [h]
      show (lyapEstimateBeta g g' c.domains n.1).map (fun _ => ()) = .ok ()
      rw [hv]
      rfl
    · rw [h]
      rfl
  · intro h
    rcases hct with h' | h' <;> rw [h'] at h <;> cases h

/-- Non-vacuity of `C73_verified_lost`: x' = -x on all of ℝ with the network x², which is positive definite and decreasing: never reported. -/
example (g g' : Rng) (out) (R : Type) (w : World R Unit (Net × ℚ)) :
    Solves (⟨.dreal, 1, .LYAPUNOV, [(XD, .reals 1)], false, 3, false, 7⟩ : SynthCfg).loop
      (singleComponents (w.withEstimate g g' ⟨.dreal, 1, .LYAPUNOV, [(XD, .reals 1)], false, 3, false, 7⟩) ⟨.dreal, 1, .LYAPUNOV, [(XD, .reals 1)], false, 3, false, 7⟩ false
        fun st => .ok ((exLyap.net, 0), st.ctrl)) (exLyap.net, 0) () [(XD, [[1/2]])] out → out.found = false :=
  C73_verified_lost w ⟨.dreal, 1, .LYAPUNOV, [(XD, .reals 1)], false, 3, false, 7⟩ false (fun st => .ok ((exLyap.net, 0), st.ctrl)) g g' rfl
    (by
      intro st n k h
      cases h
      exact ⟨rfl, by simp [exLyap, shapedFrom], by simp [exLyap], ⟨_, rfl, rfl⟩⟩) (.reals 1) rfl (by simp [WF]) (Or.inr ⟨by simp [BorderDrawn], _, rfl⟩) _ _ _ _

/-- Non-vacuity of `C73_run_total`. -/
example (g g' : Rng) : ∃ out, Solves exRunCfg.loop (singleComponents ((exSatWorld 1 _ [.neg (.var 0)]).withEstimate g g' exRunCfg) exRunCfg false
    fun st => .ok (st.net, st.ctrl)) (exLyap.net, 0) () [(XD, [[1/2]])] out ∧ (out.iters : ℤ) ≤ 8 := by
  refine C73_run_total (exSatWorld 1 _ [.neg (.var 0)]) exRunCfg false (fun st => .ok (st.net, st.ctrl)) g g' (Or.inl rfl) (Or.inl rfl) (by decide) ?_ ?_ ?_
    (fun h => by cases h) (fun _ => rfl) (fun i k φ _ => exSatWorld_val _ _ _ i k φ) (fun st h _ => ⟨st.net, st.ctrl, rfl, h⟩)
    (fun _ _ _ _ => ⟨[], rfl, fun _ => rfl⟩) _ _ _ ?_ ?_ ?_
  · intro e he
    simp only [exRunCfg, List.mem_singleton] at he
    subst he
    exact ⟨by simp [WF, exRunCfg, noSel], fun h => absurd h (by decide)⟩
  · intro l hl
    simp only [exRunCfg, setsOf, List.mem_singleton] at hl
    subst hl
    exact ⟨_, rfl⟩
  · intro _ S hS
    cases (Option.some.inj hS : PySet.rectangle [-1] [1] none = S)
    simp [BorderDrawn, AllCoords, unionDepth]
  · refine ⟨⟨rfl, by simp [exLyap, shapedFrom, exRunCfg], by simp [exLyap], ⟨_, rfl, rfl⟩⟩, ?_⟩
    intro a ha
    simp [usedActs, exLyap] at ha
    subst ha
    rfl
  · intro l hl
    simp only [exRunCfg, queryLabels, List.mem_singleton] at hl
    subst hl
    simp [Dict.keys]
  · intro l hl _
    simpa [Dict.keys] using hl

end Fossil

/-
Model of the figures drawn for a two-dimensional result: /repo/fossil/plotting.py:24-145 (`benchmark`, `benchmark_plane`, `benchmark_3d`, `benchmark_lie`),
170-283 (`plot_domains`, `certificate_surface`, `certificate_lie`, `certificate_countour`) and the `plot` methods of /repo/fossil/domains.py:36-51, 408-410, 469-471,
583-600, 715-725, 881-900, 934-943, 1031-1046, 1090-1104, 1172-1173. What is modelled is what is handed to matplotlib: the polygons, the grids of heights and the
levels; rendering is not. Reals instead of floats.
-/
import Verif.Training
import Verif.Estimate

namespace Fossil

/-! ### outlines of the sets -/

/-- A curve handed to matplotlib: `plt.Rectangle((x, y), w, h)` (domains.py:593-596), or 50 points at equal steps of the angle (719-723, 895-899, 938-942, 1036-1044);
`quarter`: the angle runs over `[0, π/2]` instead of `[0, 2π]`. -/
inductive Curve where
  | box (x y w h : ℚ)
  | arc (cx cy rx ry : ℚ) (quarter : Bool)
deriving DecidableEq

/-- The corners of the polygon that is drawn, in order; the rectangle is closed. -/
noncomputable def Curve.path : Curve → List (ℝ × ℝ)
  | .box x y w h => [((x : ℝ), (y : ℝ)), ((x : ℝ) + w, (y : ℝ)), ((x : ℝ) + w, (y : ℝ) + h), ((x : ℝ), (y : ℝ) + h), ((x : ℝ), (y : ℝ))]
  | .arc cx cy rx ry quarter => (List.range 50).map (fun k : ℕ =>
      let θ : ℝ := (k : ℝ) * ((if quarter then Real.pi / 2 else 2 * Real.pi) / 49)
      ((cx : ℝ) + rx * Real.cos θ, (cy : ℝ) + ry * Real.sin θ))

/-- A curve with its colour and its entry in the legend. -/
structure Drawn where
  curve : Curve
  colour : String
  legend : String

/-- `get_plot_colour` (domains.py:36-51): an AttributeError for other labels. -/
def plotColour (l : String) : Except Err (String × String) :=
  if l = "goal" then .ok ("green", "Goal")
  else if l = "unsafe" then .ok ("red", "Unsafe")
  else if l = "safe" then .ok ("tab:cyan", "Safe")
  else if l = "init" then .ok ("blue", "Initial")
  else if l = "lie" then .ok ("black", "Domain")
  else if l = "final" then .ok ("orange", "Final")
  else .error .attributeError

/-- `Rectangle.plot` (domains.py:583-600), inherited by `OpenRectangle`; `dim_select` is not looked at. -/
def rectCurves (l : String) (lb ub : List ℚ) : Except Err (List Drawn) :=
  if lb.length ≠ 2 then .error .notImplemented else do
    let x ← at? lb 0
    let y ← at? lb 1
    let u ← at? ub 0
    let v ← at? ub 1
    let c ← plotColour l
    return [⟨.box x y (u - x) (v - y), c.1, c.2⟩]

/-- `Sphere.plot` (domains.py:715-725), inherited by `OpenSphere`, and `PositiveOrthantSphere.plot` (934-943); `dim_select` is not looked at. -/
def circleCurves (l : String) (c : List ℚ) (r : ℚ) (quarter : Bool) : Except Err (List Drawn) :=
  if c.length ≠ 2 then .error .notImplemented else do
    let col ← plotColour l
    let x ← at? c 0
    let y ← at? c 1
    return [⟨.arc x y r r quarter, col.1, col.2⟩]

/-- `Torus.plot` (domains.py:1031-1046): the inner circle, then the outer one. -/
def torusCurves (l : String) (c : List ℚ) (ro ri : ℚ) : Except Err (List Drawn) := do
  let a ← circleCurves l c ri false
  let b ← circleCurves l c ro false
  return a ++ b

/-- The last lines of `Ellipse.plot` (domains.py:894-899); a coefficient zero is a ZeroDivisionError. -/
def ellipseArc (l : String) (ax ay cx cy r : ℚ) : Except Err (List Drawn) := do
  let col ← plotColour l
  if ax = 0 ∨ ay = 0 then .error .zeroDivision
  else return [⟨.arc (cx / ax) (cy / ay) (r / ax) (r / ay) false, col.1, col.2⟩]

/-- `Ellipse.plot` (domains.py:881-900): with `dim_select`, coefficients and centre are looked up at the selected *state* indices (lines 886-889). -/
def ellipseCurves (l : String) (a c : List ℚ) (r : ℚ) : Option (List ℕ) → Except Err (List Drawn)
  | none => if c.length ≠ 2 then .error .notImplemented else do
      let ax ← at? a 0
      let ay ← at? a 1
      let cx ← at? c 0
      let cy ← at? c 1
      ellipseArc l ax ay cx cy r
  | some [i, j] => do
      let ax ← at? a i
      let ay ← at? a j
      let cx ← at? c i
      let cy ← at? c j
      ellipseArc l ax ay cx cy r
  | some _ => .error .assertionError

/-- One set that either draws all its curves or raises before the first. -/
def drawAll : Except Err (List Drawn) → List Drawn × Except Err Unit
  | .ok cs => (cs, .ok ())
  | .error e => ([], .error e)

/-- `dom.plot(None, ax, label=lab)`: the curves added to the figure, and how the call ends. `Intersection`, `EmptySet` and `Reals` have no method `plot`;
`Bean2D.plot` (domains.py:1090) takes no `label`. -/
def PySet.plotCurves (l : String) : PySet → List Drawn × Except Err Unit
  | .rectangle lb ub _ | .openRectangle lb ub _ => drawAll (rectCurves l lb ub)
  | .sphere c r _ | .openSphere c r _ => drawAll (circleCurves l c r false)
  | .posSphere c r => drawAll (circleCurves l c r true)
  | .ellipse a c r ds => drawAll (ellipseCurves l a c r ds)
  | .torus c ro ri _ => drawAll (torusCurves l c ro ri)
  | .bean _ _ => ([], .error .typeError)
  | .empty | .reals _ | .inter _ _ => ([], .error .attributeError)
  | .union S T | .setMinus S T =>
    match S.plotCurves l with
    | (cs, .error e) => (cs, .error e)
    | (cs, .ok _) => (cs ++ (T.plotCurves l).1, (T.plotCurves l).2)
  | .compl S => S.plotCurves l

/-- `plot_domains` (plotting.py:170-176): AttributeErrors are dropped, what was drawn before them stays. -/
def plotDomains : Dict String PySet → List Drawn × Except Err Unit
  | [] => ([], .ok ())
  | (l, S) :: rest =>
    match S.plotCurves l with
    | (cs, .ok _) | (cs, .error .attributeError) => (cs ++ (plotDomains rest).1, (plotDomains rest).2)
    | (cs, .error e) => (cs, .error e)

/-! ### surfaces -/

/-- `np.linspace(lo, hi, m)`, `m ≥ 2`. -/
def linspace (lo hi : ℚ) (m : ℕ) : List ℚ := (List.range m).map (fun k : ℕ => lo + (k : ℚ) * ((hi - lo) / ((m : ℚ) - 1)))

/-- The rows of the flattened mesh (plotting.py:191-196): `X` varies fastest. -/
def meshRows (xs ys : List ℚ) : List (List ℝ) := ys.flatMap (fun y => xs.map (fun x => [((x : ℚ) : ℝ), ((y : ℚ) : ℝ)]))

/-- `.reshape(X.shape)`: rows of `w` entries. -/
def reshape {α : Type} (w : ℕ) : ℕ → List α → List (List α)
  | 0, _ => []
  | h + 1, l => l.take w :: reshape w h (l.drop w)

/-- `Z` of `certificate_surface` and `certificate_countour` (plotting.py:190-197, 270-277): `certificate(…)` is `NNLearner.forward` (learner.py:123-138), of the stored
weights and without the factor. -/
noncomputable def surface (net : Net) (xr yr : ℚ × ℚ) : Except Err (List (List ℝ)) := do
  let z ← net.forwardBatch (meshRows (linspace xr.1 xr.2 100) (linspace yr.1 yr.2 100))
  return reshape 100 100 z

/-- The heights under the dashed contour lines of the phase plane (plotting.py:270-277): always on `[-5, 5]²`. -/
noncomputable def contourHeights (net : Net) : Except Err (List (List ℝ)) := surface net (-5, 5) (-5, 5)

/-- `lie` of `certificate_lie` (plotting.py:218-237): `compute_net_gradnet(…)[1]`, no factor, times `model._f_torch`. For a model in discrete time too. -/
noncomputable def lieSurface (net : Net) (dyn : List ℝ → List ℝ) (xr yr : ℚ × ℚ) : Except Err (List (List ℝ)) := do
  let z ← (meshRows (linspace xr.1 xr.2 100) (linspace yr.1 yr.2 100)).mapM (fun x => do
    let r ← netGradnet net x
    computeDV r.2 (dyn x))
  return reshape 100 100 z

/-! ### levels and limits -/

/-- The levels of one certificate (plotting.py:44) as matplotlib gets them, after `levels.sort()` (199, 278). A tensor of samples cannot be compared with zero
(RuntimeError); matplotlib refuses levels that do not increase (ValueError). Simplification: a tensor of a single entry could be compared. -/
noncomputable def contourLevels : Option BetaValue → Except Err (List ℝ)
  | none => .ok [0]
  | some (.samples _) => .error .runtimeError
  | some (.level v) => if v = 0 then .error .valueError else if v < 0 then .ok [v, 0] else .ok [0, v]

/-- The limits of the phase plane (plotting.py:98-106): the bounds of the domain if it is a rectangle (an AttributeError otherwise, a KeyError without domain: both are
caught, an IndexError is not). -/
def planeLimits (doms : Dict String PySet) (xr yr : ℚ × ℚ) : Except Err ((ℚ × ℚ) × (ℚ × ℚ)) :=
  match Dict.get? doms XD with
  | some (.rectangle lb ub _) | some (.openRectangle lb ub _) => do
    let a ← at? lb 0
    let b ← at? ub 0
    let c ← at? lb 1
    let d ← at? ub 1
    return ((a, b), (c, d))
  | _ => .ok (xr, yr)

/-- What ends up in the figures of one run: the curves, per certificate the levels with the heights of the plane, of the surface and of the derivative. -/
structure Figures where
  curves : List Drawn
  limits : (ℚ × ℚ) × (ℚ × ℚ)
  plane : List (List ℝ × List (List ℝ))
  surfaces : List (List ℝ × List (List ℝ))
  lies : List (List (List ℝ))

/-- `plotting.benchmark(model, certificate, domains)` (plotting.py:24-54, 74-167) with the default ranges. `certs`: the network(s) with the stored `beta`. The
streamlines of the model are left out. Within a figure the order of the calls matters only for which of two exceptions is raised; here: the curves, then levels and heights
of one certificate after the other, then the limits. -/
noncomputable def benchmarkFigures (dyn : List ℝ → List ℝ) (certs : List (Net × Option BetaValue)) (doms : Dict String PySet) : Except Err Figures :=
  match plotDomains doms with
  | (_, .error e) => .error e
  | (cs, .ok _) => do
    let plane ← certs.mapM (fun c => do
      let z ← contourHeights c.1
      let l ← contourLevels c.2
      return (l, z))
    let lim ← planeLimits doms (-3, 3) (-3, 3)
    let surf ← certs.mapM (fun c => do
      let z ← surface c.1 (-3, 3) (-3, 3)
      let l ← contourLevels c.2
      return (l, z))
    let lie ← certs.mapM (fun c => lieSurface c.1 dyn (-3, 3) (-3, 3))
    return ⟨cs, lim, plane, surf, lie⟩

end Fossil

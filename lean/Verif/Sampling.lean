/-
Model of the sampling half of /repo/fossil/domains.py: `generate_data` and `sample_border` of every set
class and the helper samplers they call. Random draws are an explicit argument; real arithmetic replaces
float32. A tensor of shape (b, d) is a list of b rows of d reals.
-/
import Verif.Domains
import Mathlib.Analysis.SpecialFunctions.Pow.Real
import Mathlib.Data.Nat.Pairing

namespace Fossil

/-- A tensor of shape (batch, dimension), as a list of rows. -/
abbrev Rows := List (List ℝ)

/-- The random source: `rand k i j` is entry (i, j) of the k-th `torch.rand` call, `randn k i j` of the
k-th `torch.randn` call (domains.py:81, 128-129, 148-160, 179-185, 201-209, 217-227, 248-251, 275). -/
structure Rng where
  rand : ℕ → ℕ → ℕ → ℝ
  randn : ℕ → ℕ → ℕ → ℝ

/-- The part of the random source used by the k-th sub-call. -/
def Rng.sub (g : Rng) (k : ℕ) : Rng :=
  ⟨fun c => g.rand (Nat.pair k c), fun c => g.randn (Nat.pair k c)⟩

/-- Rows 0..b-1 given by a row function (shape (b, _) tensors). -/
def mkRows (b : ℕ) (f : ℕ → List ℝ) : Rows := (List.range b).map f

/-- The row `[f 0, ..., f (d-1)]`. -/
def mkRow (d : ℕ) (f : ℕ → ℝ) : List ℝ := (List.range d).map f

/-- Entry j of a parameter list as a real. Only used with j in range. -/
noncomputable def ent (l : List ℚ) (j : ℕ) : ℝ := ((l.getD j 0 : ℚ) : ℝ)

/-- Row plus centre: `torch.tensor(centre) + offset`, for rows of the length of the centre. -/
noncomputable def offset (c : List ℚ) (r : List ℝ) : List ℝ := List.zipWith (fun (q : ℚ) v => (q : ℝ) + v) c r

/-- `square_init_data` (domains.py:71-82): `(r1 - r2) * rand + r2` with r1 the lower and r2 the upper bounds.
Bounds of different lengths raise RuntimeError (broadcasting of length-one lists is not modelled). -/
noncomputable def squareInitData (g : Rng) (lb ub : List ℚ) (b : ℕ) : Except Err Rows :=
  if lb.length = ub.length then
    .ok (mkRows b fun i => mkRow lb.length fun j => (ent lb j - ent ub j) * g.rand 0 i j + ent ub j)
  else .error .runtimeError

/-- `segment` (domains.py:274-275): `(dims[1] - dims[0]) * rand + dims[0]`. -/
noncomputable def segment (g : Rng) (lo hi : ℝ) (b : ℕ) : Rows :=
  mkRows b fun i => [(hi - lo) * g.rand 0 i 0 + lo]

/-- Polar offset `[radius*cos(angle), radius*sin(angle)]` (domains.py:130-132, 155-157, 160-162). -/
noncomputable def polar (radius angle : ℝ) : List ℝ := [radius * Real.cos angle, radius * Real.sin angle]

/-- Spherical offset (domains.py:187-190, 253-256). -/
noncomputable def spherical (radius theta phi : ℝ) : List ℝ :=
  [radius * Real.sin theta * Real.cos phi, radius * Real.sin theta * Real.sin phi, radius * Real.cos theta]

/-- `circle_init_data` (domains.py:139-165): a tenth of the rows (`int(batch_size / 10)`) is drawn on the
border and appended after the internal rows; `r` is the squared radius. -/
noncomputable def circleInitData (g : Rng) (c : List ℚ) (r : ℝ) (b : ℕ) (onBorder : Bool) : Rows :=
  let border := b / 10
  let internal := b - border
  let s := Real.sqrt r
  (mkRows internal fun i =>
      offset c (polar (if onBorder then s * 1 else s * g.rand 1 i 0) (2 * Real.pi * g.rand 0 i 0))) ++
    (mkRows border fun i => offset c (polar s (2 * Real.pi * g.rand 2 i 0)))

/-- `sphere_init_data` (domains.py:169-192); `r` is the squared radius. -/
noncomputable def sphereInitData (g : Rng) (c : List ℚ) (r : ℝ) (b : ℕ) (onBorder : Bool) : Rows :=
  let s := Real.sqrt r
  mkRows b fun i =>
    offset c (spherical (if onBorder then s * 1 else s * g.rand 2 i 0)
      (2 * Real.pi * g.rand 0 i 0) (Real.pi * g.rand 1 i 0))

/-- `torch.sum(u**2, dim=1) ** 0.5` of row i (domains.py:205, 223). -/
noncomputable def gaussNorm (g : Rng) (d i : ℕ) : ℝ :=
  ((mkRow d fun j => g.randn 0 i j ^ 2).sum) ^ (0.5 : ℝ)

/-- Entry of `radius * rand(batch, dim) ** (1.0/dim)`, or of `radius * ones ** (1.0/dim)` on the border
(domains.py:206-209, 224-227). -/
noncomputable def rScale (g : Rng) (radius : ℝ) (d i j : ℕ) (onBorder : Bool) : ℝ :=
  if onBorder then radius * (1 : ℝ) ^ (1 / (d : ℝ)) else radius * g.rand 0 i j ^ (1 / (d : ℝ))

/-- `n_dim_sphere_init_data` (domains.py:199-212). A zero Gaussian row (nan in the code) is not modelled:
theorems assume it does not occur or do not depend on it. -/
noncomputable def nDimSphereInitData (g : Rng) (c : List ℚ) (radius : ℝ) (b : ℕ) (onBorder : Bool) : Rows :=
  mkRows b fun i => mkRow c.length fun j =>
    rScale g radius c.length i j onBorder * g.randn 0 i j / gaussNorm g c.length i + ent c j

/-- `n_dim_ellipse_init_data` (domains.py:216-232). Coefficient and centre lists of different lengths raise
RuntimeError. -/
noncomputable def nDimEllipseInitData (g : Rng) (a c : List ℚ) (radius : ℝ) (b : ℕ) (onBorder : Bool) :
    Except Err Rows :=
  if a.length = c.length then
    .ok (mkRows b fun i => mkRow c.length fun j =>
      rScale g radius c.length i j onBorder / ent a j * g.randn 0 i j / gaussNorm g c.length i
        + ent c j / ent a j)
  else .error .runtimeError

/-- `round_init_data` (domains.py:86-102): dispatch on the dimension. The one-dimensional case ignores
`on_border`, and neither it nor the n-dimensional one takes the root of `r`. -/
noncomputable def roundInitData (g : Rng) (c : List ℚ) (r : ℝ) (b : ℕ) (onBorder : Bool) : Rows :=
  if c.length = 1 then segment g (ent c 0 - r) (ent c 0 + r) b
  else if c.length = 2 then circleInitData g c r b onBorder
  else if c.length = 3 then sphereInitData g c r b onBorder
  else nDimSphereInitData g c r b onBorder

/-- `slice_nd_init_data` (domains.py:105-118), `slice_init_data` (122-135), `slice_3d_init_data` (236-258). -/
noncomputable def sliceInitData (g : Rng) (c : List ℚ) (r : ℝ) (b : ℕ) : Except Err Rows :=
  if c.length = 2 then
    .ok (mkRows b fun i =>
      offset c (polar (Real.sqrt r * g.rand 1 i 0) (Real.pi / 2 * g.rand 0 i 0)))
  else if c.length = 3 then
    .ok (mkRows b fun i =>
      offset c (spherical (Real.sqrt r * g.rand 2 i 0)
        (Real.pi / 2 * g.rand 0 i 0) (Real.pi / 2 * g.rand 1 i 0)))
  else .error .valueError

open Classical in
/-- `data[mask]` where the mask is `check_containment(data)` or its negation: keeps the rows whose test is
`keep` (domains.py:432, 434, 466). Simplification: on an empty batch no error is raised. -/
noncomputable def filterRows (T : PySet) (keep : Bool) : Rows → Except Err Rows
  | [] => .ok []
  | r :: rs => do
    let P ← T.checkContainment r
    let rest ← filterRows T keep rs
    return if decide P = keep then r :: rest else rest

/-- `generate_data` of every class (domains.py:394, 430, 463, 534, 685, 842, 925, 993, 1084, 1123).
`Bean2D` raises NotImplementedError, `Reals` and `Complement` inherit the base method which raises it too
(318). `EmptySet.generate_data` returns `None`, on which every tensor operation raises TypeError; it is
modelled as raising at once. `Sphere`/`Torus` ignore `dim_select`; `Ellipse` indexes its centre and
coefficients with it. -/
noncomputable def PySet.generateData (g : Rng) : PySet → ℕ → Except Err Rows
  | .rectangle lb ub _, b | .openRectangle lb ub _, b => squareInitData g lb ub b
  | .sphere c r _, b | .openSphere c r _, b => .ok (roundInitData g c ((r : ℝ) ^ 2) b false)
  | .ellipse a c r ds, b => do
    let c' ← selectDims ds c
    let a' ← selectDims ds a
    nDimEllipseInitData g a' c' r b false
  | .posSphere c r, b => sliceInitData g c ((r : ℝ) ^ 2) b
  | .torus c ro _ _, b => .ok (roundInitData g c ((ro : ℝ) ^ 2) b false)
  | .bean .., _ | .reals _, _ | .compl _, _ => .error .notImplemented
  | .empty, _ => .error .typeError
  | .union S T, b => do
    let x ← S.generateData (g.sub 0) (b / 2)
    let y ← T.generateData (g.sub 1) (b / 2)
    return x ++ y
  | .inter S T, b => do
    let x ← S.generateData (g.sub 0) b
    let x ← filterRows T true x
    let y ← T.generateData (g.sub 1) b
    let y ← filterRows S true y
    return x ++ y
  | .setMinus S T, b => do
    let x ← S.generateData g b
    filterRows T false x

/-- `torch.max(torch.abs(x))`. -/
noncomputable def maxAbs (x : List ℝ) : ℝ := (x.map fun v => |v|).foldr max 0

open Classical in
/-- `sphere_to_cube` (domains.py:54-60). -/
noncomputable def sphereToCube (x : List ℝ) : List ℝ :=
  if ∀ v ∈ x, v = 0 then x else x.map fun v => v * (norm2 x / maxAbs x)

/-- `cube_move` (domains.py:63-68); the bounds have the length of the row. -/
noncomputable def cubeMove (x : List ℝ) (lb ub : List ℚ) : List ℝ :=
  mkRow x.length fun i => (x.getD i 0 + 1) * (ent ub i - ent lb i) / 2 + ent lb i

/-- `Rectangle.sample_border` (domains.py:541-559). Too few upper bounds: IndexError; surplus upper bounds, which the code ignores, are rejected here too. -/
noncomputable def rectSampleBorder (g : Rng) (lb ub : List ℚ) (b : ℕ) : Except Err Rows :=
  if lb.length = ub.length then
    .ok ((roundInitData g (List.replicate lb.length 0) 1 b true).map fun r =>
      cubeMove (sphereToCube r) lb ub)
  else .error .indexError

/-- `sample_border` of every class (domains.py:399, 541, 692, 856, 1000, 1170; base class 349 raises
NotImplementedError). -/
noncomputable def PySet.sampleBorder (g : Rng) : PySet → ℕ → Except Err Rows
  | .rectangle lb ub _, b | .openRectangle lb ub _, b => rectSampleBorder g lb ub b
  | .sphere c r _, b | .openSphere c r _, b => .ok (roundInitData g c ((r : ℝ) ^ 2) b true)
  | .ellipse a c r _, b => nDimEllipseInitData g a c r b true
  | .torus c ro _ _, b => .ok (roundInitData g c ((ro : ℝ) ^ 2) b true)
  | .union S T, b => do
    let x ← S.sampleBorder (g.sub 0) (b / 2)
    let y ← T.sampleBorder (g.sub 1) (b / 2)
    return x ++ y
  | .compl S, b => S.sampleBorder g b
  | .posSphere .., _ | .bean .., _ | .reals _, _ | .empty, _ | .inter .., _ | .setMinus .., _ =>
    .error .notImplemented

end Fossil

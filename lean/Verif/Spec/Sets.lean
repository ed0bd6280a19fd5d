/-
Independent specification of the sets documented in set_guide.md / the class docstrings of
/repo/fossil/domains.py, as subsets of ℝⁿ. Nothing here refers to the formulas the code builds.
-/
import Verif.Domains

namespace Fossil.Spec

/-- Euclidean distance between two coordinate lists. -/
noncomputable def euclid (u v : List ℝ) : ℝ :=
  Real.sqrt ((List.zipWith (fun a b => (a - b) ^ 2) u v).sum)

/-- The coordinates a set constrains: all of them, or the selected ones. -/
def coords {n : ℕ} (ds : Option (List ℕ)) (p : Pt n) : List ℝ :=
  match ds with
  | some (d :: ds) => (d :: ds).map p.env
  | _ => List.ofFn p

/-- The rational parameters as real coordinates. -/
noncomputable def reals (l : List ℚ) : List ℝ := List.map (fun q : ℚ => (q : ℝ)) l

/-- The subset of `ℝⁿ` each set expression is documented to denote. -/
def docSet (n : ℕ) : PySet → Set (Pt n)
  | .rectangle lb ub ds =>
    {p | List.Forall₂ (· ≤ ·) (reals lb) (coords ds p) ∧ List.Forall₂ (· ≤ ·) (coords ds p) (reals ub)}
  | .openRectangle lb ub ds =>
    {p | List.Forall₂ (· < ·) (reals lb) (coords ds p) ∧ List.Forall₂ (· < ·) (coords ds p) (reals ub)}
  | .sphere c r ds => {p | euclid (coords ds p) (reals c) ≤ r}
  | .openSphere c r ds => {p | euclid (coords ds p) (reals c) < r}
  | .ellipse a c r ds =>
    {p | euclid (List.zipWith (· * ·) (reals a) (coords ds p)) (reals c) ≤ r}
  | .posSphere c r => {p | (∀ i, 0 < p i) ∧ euclid (coords none p) (reals c) ≤ r}
  | .torus c ro ri ds =>
    {p | (ri : ℝ) ≤ euclid (coords ds p) (reals c) ∧ euclid (coords ds p) (reals c) ≤ ro}
  | .bean c r =>
    {p | ∃ x y c0 c1 : ℝ, List.ofFn p = [x, y] ∧ reals c = [c0, c1] ∧
      ((x - c0) ^ 2 + (y - c1) ^ 2) ^ 2 ≤ r * ((x - c0) ^ 3 - (y - c1) ^ 3)}
  | .empty => ∅
  | .reals _ => Set.univ
  | .union S T => docSet n S ∪ docSet n T
  | .inter S T => docSet n S ∩ docSet n T
  | .setMinus S T => docSet n S \ docSet n T
  | .compl S => (docSet n S)ᶜ

/-- Number of coordinates selected. -/
def selCount (n : ℕ) : Option (List ℕ) → ℕ
  | some (d :: ds) => (d :: ds).length
  | _ => n

/-- All selected indices are valid. -/
def selOk (n : ℕ) : Option (List ℕ) → Prop
  | some ds => ∀ i ∈ ds, i < n
  | none => True

/-- `dim_select` absent or empty. -/
def noSel (ds : Option (List ℕ)) : Prop := ds = none ∨ ds = some []

/-- A set expression whose parameters have the right shape for an `n`-dimensional model, with
non-negative radii. -/
def WF (n : ℕ) : PySet → Prop
  | .rectangle lb ub ds | .openRectangle lb ub ds => lb.length = n ∧ ub.length = n ∧ noSel ds
  | .sphere c r ds | .openSphere c r ds => c.length = selCount n ds ∧ selOk n ds ∧ 0 ≤ r
  | .ellipse a c r ds =>
    c.length = selCount n ds ∧ a.length = selCount n ds ∧ selOk n ds ∧ 0 ≤ r
  | .posSphere c r => c.length = n ∧ 0 ≤ r
  | .torus c ro ri ds => c.length = selCount n ds ∧ selOk n ds ∧ 0 ≤ ri ∧ ri < ro
  | .bean c _ => c.length = 2 ∧ n = 2
  | .empty | .reals _ => True
  | .union S T | .inter S T | .setMinus S T => WF n S ∧ WF n T
  | .compl S => WF n S

/-- The expression contains no `EmptySet`. -/
def noEmpty : PySet → Prop
  | .empty => False
  | .union S T | .inter S T | .setMinus S T => noEmpty S ∧ noEmpty T
  | .compl S => noEmpty S
  | _ => True

/-- The expression contains no `Reals` (sympy's function table has neither truth constant). -/
def noReals : PySet → Prop
  | .reals _ => False
  | .union S T | .inter S T | .setMinus S T => noReals S ∧ noReals T
  | .compl S => noReals S
  | _ => True

/-- The conditions the constructors check: a torus is wider outside than inside, a bean lives in the plane. -/
def ctorOk : PySet → Prop
  | .torus _ ro ri _ => ri < ro
  | .bean c _ => c.length = 2
  | .union S T | .inter S T | .setMinus S T => ctorOk S ∧ ctorOk T
  | .compl S => ctorOk S
  | _ => True

/-- What each library's function table can express: z3 and dReal everything, cvc5 no EmptySet, sympy neither EmptySet nor Reals. -/
def supports : Lib → PySet → Prop
  | .z3, _ | .dreal, _ => True
  | .cvc5, S => noEmpty S
  | .sympy, S => noEmpty S ∧ noReals S

end Fossil.Spec

/-
Model of the symbolic part of /repo/fossil/domains.py: the set classes and their
generate_domain / generate_boundary / generate_interior / generate_complement /
check_containment methods.
-/
import Verif.Py
import Verif.Smt

namespace Fossil

/-- Which symbolic library the variables come from: decides the function table
(domains.py:366-375 `Set.set_functions`). -/
inductive Lib where
  | z3 | dreal | cvc5 | sympy
deriving DecidableEq, Repr

/-- Keys of the function tables used by domains.py and activations.py. Tables: consts.py:290-347 and, for the sympy
symbols handed to a set, domains.py:22-29. `CVC5_FNCS` has the key `False` (the bool), not `"False"`. -/
inductive LibKey where
  | And | Or | Not | True | False | If | ReLU | tanh | exp | sin | cos | simplify
deriving DecidableEq, Repr

/-- `key in TABLE` for the four tables consts.py:290-299 (Z3_FNCS), 301-318 (DREAL_FNCS), 320-335 (CVC5_FNCS) and, for sympy,
domains.py:22-29 (the table `Set.set_functions` returns, 374-375). The other sympy table, consts.py:343-347 (used by activations.py:36),
differs only in lacking And/Or/Not, which activations.py never asks for, so one table serves both. -/
def Lib.has : Lib → LibKey → Bool
  | .z3, .And | .z3, .Or | .z3, .Not | .z3, .True | .z3, .False | .z3, .If | .z3, .ReLU
  | .z3, .simplify => true
  | .z3, _ => false
  | .dreal, _ => true
  | .cvc5, .False => false
  | .cvc5, _ => true
  | .sympy, .sin | .sympy, .cos | .sympy, .exp | .sympy, .And | .sympy, .Or | .sympy, .Not => true
  | .sympy, _ => false

/-- `f["key"]`: KeyError when the table lacks the key. -/
def Lib.need (b : Lib) (k : LibKey) : Except Err Unit :=
  if b.has k then .ok () else .error .keyError

/-- The set classes of domains.py:306-1173. Rectangle 477, OpenRectangle 603, Sphere 633,
OpenSphere 739, Ellipse 765, PositiveOrthantSphere 903, Torus 946, Bean2D 1049, EmptySet 1106,
Reals 1127, Complement 1142, Union 378, Intersection 413, SetMinus 438.
`ds` is `dim_select` (`None`, or the list of selected indices). Negative Python indices are not
modelled. -/
inductive PySet where
  | rectangle (lb ub : List ℚ) (ds : Option (List ℕ))
  | openRectangle (lb ub : List ℚ) (ds : Option (List ℕ))
  | sphere (centre : List ℚ) (radius : ℚ) (ds : Option (List ℕ))
  | openSphere (centre : List ℚ) (radius : ℚ) (ds : Option (List ℕ))
  | ellipse (coeffs centre : List ℚ) (radius : ℚ) (ds : Option (List ℕ))
  | posSphere (centre : List ℚ) (radius : ℚ)
  | torus (centre : List ℚ) (outer inner : ℚ) (ds : Option (List ℕ))
  | bean (centre : List ℚ) (radius : ℚ)
  | empty
  | reals (dim : ℕ)
  | union (S T : PySet)
  | inter (S T : PySet)
  | setMinus (S T : PySet)
  | compl (S : PySet)
deriving DecidableEq, Repr

/-- The constructors (`__init__`): domains.py:383-386 (Union), 418-421 (Intersection), 443-446 (SetMinus), 478-483 (Rectangle), 604-605, 634-638
(Sphere), 740-741, 771-776 (Ellipse), 904-908, 951-958 (Torus, with its assertion), 1052-1056 (Bean2D, with its assertion), 1132-1133 (Reals),
1145-1147 (Complement). The value is the attribute `dimension` of the new object, `none` when the object has no such attribute: `EmptySet`
(1106-1124) inherits the empty `Set.__init__` (312-313). Operands are constructed first, then their `dimension` is read. -/
def PySet.construct : PySet → Except Err (Option ℕ)
  | .rectangle lb _ _ | .openRectangle lb _ _ => .ok (some lb.length)
  | .sphere c _ _ | .openSphere c _ _ | .ellipse _ c _ _ | .posSphere c _ => .ok (some c.length)
  | .torus c ro ri _ => if ri < ro then .ok (some c.length) else .error .assertionError
  | .bean c _ => if c.length = 2 then .ok (some c.length) else .error .assertionError
  | .empty => .ok none
  | .reals d => .ok (some d)
  | .union S T | .inter S T | .setMinus S T => do
    let s ← S.construct
    let t ← T.construct
    match s, t with
    | some m, some k => return some (max m k)
    | _, _ => .error .attributeError
  | .compl S => do
    let s ← S.construct
    match s with
    | some m => return some m
    | none => .error .attributeError

/-- `l[i]`: IndexError when out of range. -/
def at? {α : Type _} (l : List α) (i : ℕ) : Except Err α :=
  match l[i]? with
  | some a => .ok a
  | none => .error .indexError

/-- List comprehension `[f(a) for a in l]` whose body may raise. -/
def mapE {α β : Type _} (f : α → Except Err β) : List α → Except Err (List β)
  | [] => .ok []
  | a :: l => match f a with
    | .error e => .error e
    | .ok b => match mapE f l with
      | .error e => .error e
      | .ok bs => .ok (b :: bs)

/-- `if self.dim_select: x = [x[i] for i in self.dim_select]` (an empty list is falsy);
domains.py:648, 661, 679, 751, 786, 802, 826, 968. -/
def selectDims {α : Type _} (ds : Option (List ℕ)) (x : List α) : Except Err (List α) :=
  match ds with
  | some (d :: ds) => mapE (at? x) (d :: ds)
  | _ => .ok x

/-- One entry of `[self.lower_bounds[i] <= x[i] for i in range(self.dimension)]` and friends
(domains.py:494-495, 530-531, 616-617). -/
def boundEntry (cmp : Term → Term → Formula) (lower : Bool) (bs : List ℚ) (x : List Term) (i : ℕ) :
    Except Err Formula := do
  let b ← at? bs i
  let t ← at? x i
  return if lower then cmp (.const b) t else cmp t (.const b)

/-- The whole list comprehension: one comparison per dimension. -/
def boundList (cmp : Term → Term → Formula) (lower : Bool) (bs : List ℚ) (dim : ℕ) (x : List Term) :
    Except Err (List Formula) :=
  mapE (boundEntry cmp lower bs x) (List.range dim)

/-- `(x[i] - self.centre[i]) ** 2` (domains.py:652, 664, 682, 755, 922, 973, 986). -/
def sqEntry (x : List Term) (centre : List ℚ) (i : ℕ) : Except Err Term := do
  let t ← at? x i
  let c ← at? centre i
  return .pow (.sub t (.const c)) 2

/-- `sum([(x[i] - self.centre[i]) ** 2 for i in range(m)])` (same lines). -/
def sqDist (x : List Term) (centre : List ℚ) (m : ℕ) : Except Err Term := do
  let l ← mapE (sqEntry x centre) (List.range m)
  return Term.sum l

/-- `(self.coeffs[i] * x[i] - self.centre[i]) ** 2` (domains.py:792, 809, 833). -/
def ellEntry (x : List Term) (coeffs centre : List ℚ) (i : ℕ) : Except Err Term := do
  let a ← at? coeffs i
  let t ← at? x i
  let c ← at? centre i
  return .pow (.sub (.mul (.const a) t) (.const c)) 2

/-- `sum([(self.coeffs[i] * x[i] - self.centre[i]) ** 2 for i in range(m)])` (same lines). -/
def sqEll (x : List Term) (coeffs centre : List ℚ) (m : ℕ) : Except Err Term := do
  let l ← mapE (ellEntry x coeffs centre) (List.range m)
  return Term.sum l

/-- The ellipse guard `assert len(self.coeffs) == len(self.dim_select)` (domains.py:785, 804, 828). -/
def ellGuard (coeffs : List ℚ) (ds : Option (List ℕ)) : Except Err Unit :=
  match ds with
  | some (d :: ds) => if coeffs.length = (d :: ds).length then .ok () else .error .assertionError
  | _ => .ok ()

/-- The polynomial of `Bean2D` (domains.py:1061-1070). `x, y = x` raises ValueError unless the
argument has length two. -/
def beanPoly (centre : List ℚ) (r : ℚ) (x : List Term) : Except Err Term :=
  match x, centre with
  | [x, y], [c0, c1] =>
    let x := Term.sub x (.const c0)
    let y := Term.sub y (.const c1)
    .ok (.sub (.pow (.add (.pow x 2) (.pow y 2)) 2)
      (.mul (.const r) (.sub (.pow x 3) (.pow y 3))))
  | _, _ => .error .valueError

/-- `Rectangle.generate_domain` / `generate_interior` body (domains.py:488-496, 523-532, 610-618). -/
def rectDomain (b : Lib) (cmp : Term → Term → Formula) (lb ub : List ℚ) (x : List Term) :
    Except Err Formula := do
  b.need .And
  let lower ← boundList cmp true lb lb.length x
  let upper ← boundList cmp false ub lb.length x
  return .and (.conj lower) (.conj upper)

/-- `generate_domain` of every class (domains.py:391, 426, 451, 488, 610, 643, 746, 781, 913, 963,
1061, 1112, 1137, 1152). Rectangles ignore `dim_select` in their formulas, as in the code. -/
def PySet.generateDomain (b : Lib) : PySet → List Term → Except Err Formula
  | .rectangle lb ub _, x => rectDomain b Formula.le lb ub x
  | .openRectangle lb ub _, x => rectDomain b Formula.lt lb ub x
  | .sphere c r ds, x => do
    let x ← selectDims ds x
    let s ← sqDist x c x.length
    return .le s (.const (r ^ 2))
  | .openSphere c r ds, x => do
    let x ← selectDims ds x
    let s ← sqDist x c x.length
    return .lt s (.const (r ^ 2))
  | .ellipse a c r ds, x => do
    ellGuard a ds
    let x ← selectDims ds x
    let s ← sqEll x a c x.length
    return .le s (.const (r ^ 2))
  | .posSphere c r, x => do
    b.need .And
    let s ← sqDist x c c.length
    return .conj (x.map (fun t => Formula.lt (.const 0) t) ++ [.le s (.const (r ^ 2))])
  | .torus c ro ri ds, x => do
    let x ← selectDims ds x
    b.need .And
    let s ← sqDist x c x.length
    return .and (.le (.const (ri ^ 2)) s) (.le s (.const (ro ^ 2)))
  | .bean c r, x => do
    let s ← beanPoly c r x
    return .le s (.const 0)
  | .empty, _ => do
    b.need .False
    return .ff
  | .reals _, _ => do
    b.need .True
    return .tt
  | .union S T, x => do
    b.need .Or
    let s ← S.generateDomain b x
    let t ← T.generateDomain b x
    return .or s t
  | .inter S T, x => do
    b.need .And
    let s ← S.generateDomain b x
    let t ← T.generateDomain b x
    return .and s t
  | .setMinus S T, x => do
    b.need .And
    let s ← S.generateDomain b x
    b.need .Not
    let t ← T.generateDomain b x
    return .and s (.not t)
  | .compl S, x => do
    b.need .Not
    let s ← S.generateDomain b x
    return .not s

/-- `generate_boundary` (domains.py:457, 498, 655, 796, 978, 1072, 1116, 1162). Classes without the
method raise AttributeError (there is no base-class definition). `Torus.generate_boundary` ignores
`dim_select`; OpenRectangle/OpenSphere inherit the closed versions (the inherited
`Rectangle.generate_boundary` calls the overridden `generate_domain`). Simplification: the
equalities `x[i] == lb[i]`, `x[i] == ub[i]` are listed lower-then-upper instead of interleaved.
For sympy symbols `==` is Python structural equality, so this function models z3/dReal/cvc5 only. -/
def PySet.generateBoundary (b : Lib) : PySet → List Term → Except Err Formula
  | .rectangle lb ub ds, x => do
    b.need .Or
    b.need .And
    let inb ← (PySet.rectangle lb ub ds).generateDomain b x
    let l ← boundList Formula.eq false lb lb.length x
    let u ← boundList Formula.eq false ub lb.length x
    return .and (.or (.disj l) (.disj u)) inb
  | .openRectangle lb ub ds, x => do
    b.need .Or
    b.need .And
    let inb ← (PySet.openRectangle lb ub ds).generateDomain b x
    let l ← boundList Formula.eq false lb lb.length x
    let u ← boundList Formula.eq false ub lb.length x
    return .and (.or (.disj l) (.disj u)) inb
  | .sphere c r ds, x => do
    let x ← selectDims ds x
    let s ← sqDist x c c.length
    return .eq s (.const (r ^ 2))
  | .openSphere c r ds, x => do
    let x ← selectDims ds x
    let s ← sqDist x c c.length
    return .eq s (.const (r ^ 2))
  | .ellipse a c r ds, x => do
    ellGuard a ds
    let x ← selectDims ds x
    let s ← sqEll x a c c.length
    return .eq s (.const (r ^ 2))
  | .torus c ro ri _, x => do
    b.need .Or
    let s ← sqDist x c c.length
    return .or (.eq s (.const (ri ^ 2))) (.eq s (.const (ro ^ 2)))
  | .bean c r, x => do
    let s ← beanPoly c r x
    return .eq s (.const 0)
  | .empty, _ => do
    b.need .False
    return .ff
  | .setMinus S T, x => do
    b.need .Or
    let s ← S.generateBoundary b x
    let t ← T.generateBoundary b x
    return .or s t
  | .compl S, x => S.generateBoundary b x
  | .posSphere .., _ | .reals _, _ | .union .., _ | .inter .., _ => .error .attributeError

/-- `generate_interior` (domains.py:523, 668, 816). -/
def PySet.generateInterior (b : Lib) : PySet → List Term → Except Err Formula
  | .rectangle lb ub _, x => rectDomain b Formula.lt lb ub x
  | .openRectangle lb ub _, x => rectDomain b Formula.lt lb ub x
  | .sphere c r ds, x => do
    let x ← selectDims ds x
    let s ← sqDist x c c.length
    return .lt s (.const (r ^ 2))
  | .openSphere c r ds, x => do
    let x ← selectDims ds x
    let s ← sqDist x c c.length
    return .lt s (.const (r ^ 2))
  | .ellipse a c r ds, x => do
    ellGuard a ds
    let x ← selectDims ds x
    let s ← sqEll x a c c.length
    return .lt s (.const (r ^ 2))
  | _, _ => .error .attributeError

/-- `Set.generate_complement` (domains.py:327-337). -/
def PySet.generateComplement (b : Lib) (S : PySet) (x : List Term) : Except Err Formula := do
  b.need .Not
  let s ← S.generateDomain b x
  return .not s

/-- Euclidean norm of a row vector, `tensor.norm(2, dim=-1)`. -/
noncomputable def norm2 (l : List ℝ) : ℝ := Real.sqrt ((l.map (fun a => a ^ 2)).sum)

/-- `x - c` / `a * x - c` for row vectors of equal length (a shape mismatch is a RuntimeError;
torch broadcasting of length-one vectors is not modelled). -/
noncomputable def rowSub (x : List ℝ) (c : List ℚ) : Except Err (List ℝ) :=
  if x.length = c.length then .ok (List.zipWith (fun a (b : ℚ) => a - (b : ℝ)) x c) else .error .runtimeError

noncomputable def rowScale (a : List ℚ) (x : List ℝ) : Except Err (List ℝ) :=
  if a.length = x.length then .ok (List.zipWith (fun (b : ℚ) v => (b : ℝ) * v) a x) else .error .runtimeError

/-- `check_containment` on one row of the batch (domains.py:473, 561, 620, 699, 758, 863, 1009, 1120,
1156). With a truthy `dim_select` the code replaces the tensor by a Python list of columns and
the following tensor operation raises TypeError. Union, Intersection, PositiveOrthantSphere,
Bean2D and Reals do not define the method (AttributeError). Real arithmetic replaces
float32. -/
noncomputable def PySet.checkContainment : PySet → List ℝ → Except Err Prop
  | .rectangle lb ub none, x | .rectangle lb ub (some []), x =>
    if lb.length = x.length ∧ ub.length = x.length then
      .ok (List.Forall₂ (fun (u : ℚ) v => v ≤ (u : ℝ)) ub x ∧
        List.Forall₂ (fun (l : ℚ) v => (l : ℝ) ≤ v) lb x)
    else .error .runtimeError
  | .openRectangle lb ub none, x | .openRectangle lb ub (some []), x =>
    if lb.length = x.length ∧ ub.length = x.length then
      .ok (List.Forall₂ (fun (u : ℚ) v => v < (u : ℝ)) ub x ∧
        List.Forall₂ (fun (l : ℚ) v => (l : ℝ) < v) lb x)
    else .error .runtimeError
  | .sphere c r none, x | .sphere c r (some []), x => do
    let d ← rowSub x c
    return norm2 d ≤ (r : ℝ) ^ 2
  | .openSphere c r none, x | .openSphere c r (some []), x => do
    let d ← rowSub x c
    return norm2 d < (r : ℝ) ^ 2
  | .ellipse a c r none, x | .ellipse a c r (some []), x => do
    let y ← rowScale a x
    let d ← rowSub y c
    return norm2 d ≤ (r : ℝ) ^ 2
  | .torus c ro ri none, x | .torus c ro ri (some []), x => do
    let d ← rowSub x c
    return (ri : ℝ) ≤ norm2 d ∧ norm2 d ≤ (ro : ℝ) ^ 2
  | .rectangle _ _ (some (_ :: _)), _ | .openRectangle _ _ (some (_ :: _)), _
  | .sphere _ _ (some (_ :: _)), _ | .openSphere _ _ (some (_ :: _)), _
  | .ellipse _ _ _ (some (_ :: _)), _ | .torus _ _ _ (some (_ :: _)), _ => .error .typeError
  | .empty, _ => .ok False
  | .compl S, x => do
    let s ← S.checkContainment x
    return ¬ s
  | .setMinus S T, x => do
    let s ← S.checkContainment x
    let t ← T.checkContainment x
    return s ∧ ¬ t
  | .posSphere .., _ | .bean .., _ | .reals _, _ | .union .., _ | .inter .., _ =>
    .error .attributeError

end Fossil

/-
Printed forms of sets: the `__repr__` methods of /repo/fossil/domains.py, which the recorder writes into the results file
(analysis.py:392-433 `domains_to_string`, 163, 187).
-/
import Verif.Domains

namespace Fossil

/-- `repr` of a Python list of numbers. `num` is Python's `repr` of an int or float (one text per value; that `1` and `1.0` print
differently is not modelled). -/
def pyListText (num : ℚ → String) (l : List ℚ) : String := "[" ++ ", ".intercalate (l.map num) ++ "]"

/-- `f"Name{a, b}"`: a tuple inside an f-string prints as its items separated by `, ` in round brackets. -/
def callText (name : List Char) (args : List String) : String := String.ofList name ++ "(" ++ ", ".intercalate args ++ ")"

/-- `f"({a} op {b})"` -/
def opText (op : Char) (a b : String) : String := "(" ++ a ++ " " ++ op.toString ++ " " ++ b ++ ")"

/-- The class names in the printed forms. -/
inductive ShapeName where
  | Rectangle | OpenRectangle | Sphere | OpenSphere | Ellipse | PositiveOrthantSphere | Torus | Bean2D
deriving DecidableEq

/-- As text. -/
def ShapeName.chars : ShapeName → List Char
  | .Rectangle => ['R', 'e', 'c', 't', 'a', 'n', 'g', 'l', 'e']
  | .OpenRectangle => ['O', 'p', 'e', 'n', 'R', 'e', 'c', 't', 'a', 'n', 'g', 'l', 'e']
  | .Sphere => ['S', 'p', 'h', 'e', 'r', 'e']
  | .OpenSphere => ['O', 'p', 'e', 'n', 'S', 'p', 'h', 'e', 'r', 'e']
  | .Ellipse => ['E', 'l', 'l', 'i', 'p', 's', 'e']
  | .PositiveOrthantSphere => ['P', 'o', 's', 'i', 't', 'i', 'v', 'e', 'O', 'r', 't', 'h', 'a', 'n', 't', 'S', 'p', 'h', 'e', 'r', 'e']
  | .Torus => ['T', 'o', 'r', 'u', 's']
  | .Bean2D => ['B', 'e', 'a', 'n', '2', 'D']

/-- `__repr__`: domains.py:388-389 (Union), 423-424 (Intersection), 448-449 (SetMinus), 485-486 (Rectangle), 607-608, 640-641 (Sphere),
743-744, 778-779 (Ellipse), 910-911, 960-961 (Torus), 1058-1059, 1109-1110, 1134-1135 (Reals: reads `self.dim`, which is never assigned; the
constructor, 1131-1132, assigns `self.dimension`), 1149-1150 (Complement). The bounds and centres are taken to be lists. -/
def PySet.text (num : ℚ → String) : PySet → Except Err String
  | .rectangle lb ub _ => .ok (callText ShapeName.Rectangle.chars [pyListText num lb, pyListText num ub])
  | .openRectangle lb ub _ => .ok (callText ShapeName.OpenRectangle.chars [pyListText num lb, pyListText num ub])
  | .sphere c r _ => .ok (callText ShapeName.Sphere.chars [pyListText num c, num r])
  | .openSphere c r _ => .ok (callText ShapeName.OpenSphere.chars [pyListText num c, num r])
  | .ellipse a c r _ => .ok (callText ShapeName.Ellipse.chars [pyListText num a, pyListText num c, num r])
  | .posSphere c r => .ok (callText ShapeName.PositiveOrthantSphere.chars [pyListText num c, num r])
  | .torus c ro ri _ => .ok (callText ShapeName.Torus.chars [pyListText num c, num ro, num ri])
  | .bean c r => .ok (callText ShapeName.Bean2D.chars [pyListText num c, num r])
  | .empty => .ok (String.ofList ['E', 'm', 'p', 't', 'y', 'S', 'e', 't'])
  | .reals _ => .error .attributeError
  | .union S T => do
    let a ← S.text num
    let b ← T.text num
    return opText '|' a b
  | .inter S T => do
    let a ← S.text num
    let b ← T.text num
    return opText '&' a b
  | .setMinus S T => do
    let a ← S.text num
    let b ← T.text num
    return opText '\\' a b
  | .compl S => do
    let a ← S.text num
    return callText ['C', 'o', 'm', 'p', 'l', 'e', 'm', 'e', 'n', 't'] [a]

end Fossil

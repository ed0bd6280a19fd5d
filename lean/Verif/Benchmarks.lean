/-
Model of the benchmark dynamics shipped with the tool: /repo/experiments/benchmarks/models.py. Every class has a numeric side (`f_torch`, used to
compute the data the learner sees) and a symbolic side (`f_smt`, what the verifier sees), written separately; both are transcribed here,
separately. `f_torch` is given on one row of the batch. Decimal literals are read as exact numbers and numeric subexpressions, which Python
computes in floating point, are kept as expressions.
-/
import Verif.Net
import Verif.Controller

set_option linter.unusedVariables false

namespace Fossil

/-! Operators on solver terms (Python operator overloading in the solver bindings). -/
namespace TermOps

scoped instance : Add Term := ⟨.add⟩
scoped instance : Sub Term := ⟨.sub⟩
scoped instance : Mul Term := ⟨.mul⟩
scoped instance : Div Term := ⟨.div⟩
scoped instance : Neg Term := ⟨.neg⟩
scoped instance : HPow Term ℕ Term := ⟨fun a k => .pow a k⟩
scoped instance (n : ℕ) : OfNat Term n := ⟨.const n⟩
scoped instance : OfScientific Term := ⟨fun m s e => .const (OfScientific.ofScientific m s e)⟩

end TermOps

open TermOps

/-- `v[:, i]` on one row, `v[i]` of a list: IndexError beyond the end. -/
def item {α : Type _} (v : List α) (i : ℕ) : Except Err α :=
  match v[i]? with
  | some a => .ok a
  | none => .error .indexError

/-- A benchmark class (control.py:29-131, 134-187): the class attributes `n_vars`, `n_u` (absent: `none`), whether it has control inputs, and
the two versions of its dynamics. Models without inputs ignore `u`. -/
structure Bench where
  name : String
  nVars : Option ℕ
  nU : Option ℕ
  controlled : Bool
  torch : List ℝ → List ℝ → Except Err (List ℝ)
  smt : Lib → List Term → List Term → Except Err (List Term)

namespace Bench

/-- `Linear0` (experiments/benchmarks/models.py:40-49; `f_torch` 43-45, `f_smt` 47-49). -/
noncomputable def linear0 : Bench where
  name := "Linear0"
  nVars := some 2
  nU := none
  controlled := false
  torch := fun v u => do
    let x ← item v 0
    let y ← item v 1
    return [-x - y, x]
  smt := fun lib v u => do
    let [x, y] := v | throw .valueError
    return [-x - y, x]

/-- `NonPoly0` (experiments/benchmarks/models.py:52-61; `f_torch` 55-57, `f_smt` 59-61). -/
noncomputable def nonPoly0 : Bench where
  name := "NonPoly0"
  nVars := some 2
  nU := none
  controlled := false
  torch := fun v u => do
    let x ← item v 0
    let y ← item v 1
    return [-x + x * y, -y]
  smt := fun lib v u => do
    let [x, y] := v | throw .valueError
    return [-x + x * y, -y]

/-- `NonPoly1` (experiments/benchmarks/models.py:64-73; `f_torch` 67-69, `f_smt` 71-73). -/
noncomputable def nonPoly1 : Bench where
  name := "NonPoly1"
  nVars := some 2
  nU := none
  controlled := false
  torch := fun v u => do
    let x ← item v 0
    let y ← item v 1
    return [-x + 2 * x ^ 2 * y, -y]
  smt := fun lib v u => do
    let [x, y] := v | throw .valueError
    return [-x + 2 * x ^ 2 * y, -y]

/-- `NonPoly2` (experiments/benchmarks/models.py:76-85; `f_torch` 79-81, `f_smt` 83-85). -/
noncomputable def nonPoly2 : Bench where
  name := "NonPoly2"
  nVars := some 3
  nU := none
  controlled := false
  torch := fun v u => do
    let x ← item v 0
    let y ← item v 1
    let z ← item v 2
    return [-x, -2 * y + 0.1 * x * y ^ 2 + z, -z - 1.5 * y]
  smt := fun lib v u => do
    let [x, y, z] := v | throw .valueError
    return [-x, -2 * y + 0.1 * x * y ^ 2 + z, -z - 1.5 * y]

/-- `NonPoly3` (experiments/benchmarks/models.py:88-97; `f_torch` 91-93, `f_smt` 95-97). -/
noncomputable def nonPoly3 : Bench where
  name := "NonPoly3"
  nVars := some 3
  nU := none
  controlled := false
  torch := fun v u => do
    let x ← item v 0
    let y ← item v 1
    let z ← item v 2
    return [-3 * x - 0.1 * x * y ^ 3, -y + z, -z]
  smt := fun lib v u => do
    let [x, y, z] := v | throw .valueError
    return [-3 * x - 0.1 * x * y ^ 3, -y + z, -z]

/-- `Benchmark0` (experiments/benchmarks/models.py:100-109; `f_torch` 103-105, `f_smt` 107-109). -/
noncomputable def benchmark0 : Bench where
  name := "Benchmark0"
  nVars := some 2
  nU := none
  controlled := false
  torch := fun v u => do
    let x ← item v 0
    let y ← item v 1
    return [-x, -y]
  smt := fun lib v u => do
    let [x, y] := v | throw .valueError
    return [-x, -y]

/-- `Benchmark1` (experiments/benchmarks/models.py:112-124; `f_torch` 116-119, `f_smt` 121-124). -/
noncomputable def benchmark1 : Bench where
  name := "Benchmark1"
  nVars := some 2
  nU := some 2
  controlled := true
  torch := fun v u => do
    let x ← item v 0
    let y ← item v 1
    let u1 ← item u 0
    let u2 ← item u 1
    return [x + y + u1, -y - x + u2]
  smt := fun lib v u => do
    let [x, y] := v | throw .valueError
    let [u1, u2] := u | throw .valueError
    return [x + y + u1, -y - x + u2]

/-- `Benchmark2` (experiments/benchmarks/models.py:127-139; `f_torch` 131-134, `f_smt` 136-139). -/
noncomputable def benchmark2 : Bench where
  name := "Benchmark2"
  nVars := some 2
  nU := some 3
  controlled := true
  torch := fun v u => do
    let x ← item v 0
    let y ← item v 1
    let u1 ← item u 0
    let u2 ← item u 1
    let u3 ← item u 2
    return [x + y + u1 - u2, y + 2.0 * x + u3]
  smt := fun lib v u => do
    let [x, y] := v | throw .valueError
    let [u1, u2, u3] := u | throw .valueError
    return [x + y + u1 - u2, y + 2.0 * x + u3]

/-- `BenchmarkDT1` (experiments/benchmarks/models.py:142-151; `f_torch` 143-146, `f_smt` 148-151). -/
noncomputable def benchmarkDT1 : Bench where
  name := "BenchmarkDT1"
  nVars := none
  nU := none
  controlled := true
  torch := fun v u => do
    let x ← item v 0
    let y ← item v 1
    let u1 ← item u 0
    let u2 ← item u 1
    return [2.0 * x + u1, 2.0 * y + u2]
  smt := fun lib v u => do
    let [x, y] := v | throw .valueError
    let [u1, u2] := u | throw .valueError
    return [2.0 * x + u1, 2.0 * y + u2]

/-- `Poly1` (experiments/benchmarks/models.py:160-169; `f_torch` 163-165, `f_smt` 167-169). -/
noncomputable def poly1 : Bench where
  name := "Poly1"
  nVars := some 3
  nU := none
  controlled := false
  torch := fun v u => do
    let x ← item v 0
    let y ← item v 1
    let z ← item v 2
    return [-x ^ 3 - x * z ^ 2, -y - x ^ 2 * y, -z + 3 * x ^ 2 * z - 3 * z]
  smt := fun lib v u => do
    let [x, y, z] := v | throw .valueError
    return [-x ^ 3 - x * z ^ 2, -y - x ^ 2 * y, -z + 3 * x ^ 2 * z - 3 * z]

/-- `Poly2` (experiments/benchmarks/models.py:172-181; `f_torch` 175-177, `f_smt` 179-181). -/
noncomputable def poly2 : Bench where
  name := "Poly2"
  nVars := some 2
  nU := none
  controlled := false
  torch := fun v u => do
    let x ← item v 0
    let y ← item v 1
    return [-x ^ 3 + y, -x - y]
  smt := fun lib v u => do
    let [x, y] := v | throw .valueError
    return [-x ^ 3 + y, -x - y]

/-- `Poly3` (experiments/benchmarks/models.py:184-193; `f_torch` 187-189, `f_smt` 191-193). -/
noncomputable def poly3 : Bench where
  name := "Poly3"
  nVars := some 2
  nU := none
  controlled := false
  torch := fun v u => do
    let x ← item v 0
    let y ← item v 1
    return [-x ^ 3 - y ^ 2, x * y - y ^ 3]
  smt := fun lib v u => do
    let [x, y] := v | throw .valueError
    return [-x ^ 3 - y ^ 2, x * y - y ^ 3]

/-- `Poly4` (experiments/benchmarks/models.py:196-205; `f_torch` 199-201, `f_smt` 203-205). -/
noncomputable def poly4 : Bench where
  name := "Poly4"
  nVars := some 2
  nU := none
  controlled := false
  torch := fun v u => do
    let x ← item v 0
    let y ← item v 1
    return [-x - 1.5 * x ^ 2 * y ^ 3, -y ^ 3 + 0.5 * x ^ 3 * y ^ 2]
  smt := fun lib v u => do
    let [x, y] := v | throw .valueError
    return [-x - 1.5 * x ^ 2 * y ^ 3, -y ^ 3 + 0.5 * x ^ 3 * y ^ 2]

/-- `Sriram4D` (experiments/benchmarks/models.py:208-227; `f_torch` 211-218, `f_smt` 220-227). -/
noncomputable def sriram4D : Bench where
  name := "Sriram4D"
  nVars := some 4
  nU := none
  controlled := false
  torch := fun v u => do
    let x1 ← item v 0
    let x2 ← item v 1
    let x3 ← item v 2
    let x4 ← item v 3
    return [-x1 + x2 ^ 3 - 3 * x3 * x4, -x1 - x2 ^ 3, x1 * x4 - x3, x1 * x3 - x4 ^ 3]
  smt := fun lib v u => do
    let [x1, x2, x3, x4] := v | throw .valueError
    return [-x1 + x2 ^ 3 - 3 * x3 * x4, -x1 - x2 ^ 3, x1 * x4 - x3, x1 * x3 - x4 ^ 3]

/-- `LinearDiscrete` (experiments/benchmarks/models.py:230-239; `f_torch` 233-235, `f_smt` 237-239). -/
noncomputable def linearDiscrete : Bench where
  name := "LinearDiscrete"
  nVars := some 2
  nU := none
  controlled := false
  torch := fun v u => do
    let x ← item v 0
    let y ← item v 1
    return [0.5 * x - 0.5 * y, 0.5 * x]
  smt := fun lib v u => do
    let [x, y] := v | throw .valueError
    return [0.5 * x - 0.5 * y, 0.5 * x]

/-- `DoubleLinearDiscrete` (experiments/benchmarks/models.py:242-251; `f_torch` 245-247, `f_smt` 249-251). -/
noncomputable def doubleLinearDiscrete : Bench where
  name := "DoubleLinearDiscrete"
  nVars := some 4
  nU := none
  controlled := false
  torch := fun v u => do
    let x1 ← item v 0
    let x2 ← item v 1
    let x3 ← item v 2
    let x4 ← item v 3
    return [0.5 * x1 - 0.5 * x2, 0.5 * x1, 0.5 * x3 - 0.5 * x4, 0.5 * x3]
  smt := fun lib v u => do
    let [x1, x2, x3, x4] := v | throw .valueError
    return [0.5 * x1 - 0.5 * x2, 0.5 * x1, 0.5 * x3 - 0.5 * x4, 0.5 * x3]

/-- `NonLinearDiscrete` (experiments/benchmarks/models.py:266-275; `f_torch` 269-271, `f_smt` 273-275). -/
noncomputable def nonLinearDiscrete : Bench where
  name := "NonLinearDiscrete"
  nVars := some 2
  nU := none
  controlled := false
  torch := fun v u => do
    let x ← item v 0
    let y ← item v 1
    return [0.5 * x - 0.000001 * y ^ 2, 0.5 * x * y]
  smt := fun lib v u => do
    let [x, y] := v | throw .valueError
    return [0.5 * x - 0.000001 * y ^ 2, 0.5 * x * y]

/-- `Barr1` (experiments/benchmarks/models.py:324-333; `f_torch` 327-329, `f_smt` 331-333). -/
noncomputable def barr1 : Bench where
  name := "Barr1"
  nVars := some 2
  nU := none
  controlled := false
  torch := fun v u => do
    let x ← item v 0
    let y ← item v 1
    return [y + 2 * x * y, -x - y ^ 2 + 2 * x ^ 2]
  smt := fun lib v u => do
    let [x, y] := v | throw .valueError
    return [y + 2 * x * y, -x - y ^ 2 + 2 * x ^ 2]

/-- `Barr2` (experiments/benchmarks/models.py:336-347; `f_torch` 339-341, `f_smt` 343-347). -/
noncomputable def barr2 : Bench where
  name := "Barr2"
  nVars := some 2
  nU := none
  controlled := false
  torch := fun v u => do
    let x ← item v 0
    let y ← item v 1
    return [Real.exp (-x) + y - 1, -Real.sin x ^ 2]
  smt := fun lib v u => do
    lib.need .sin
    lib.need .exp
    let [x, y] := v | throw .valueError
    return [Term.app .exp (-x) + y - 1, -Term.app .sin x ^ 2]

/-- `Barr3` (experiments/benchmarks/models.py:350-359; `f_torch` 353-355, `f_smt` 357-359). -/
noncomputable def barr3 : Bench where
  name := "Barr3"
  nVars := some 2
  nU := none
  controlled := false
  torch := fun v u => do
    let x ← item v 0
    let y ← item v 1
    return [y, -x - y + 1 / 3 * x ^ 3]
  smt := fun lib v u => do
    let [x, y] := v | throw .valueError
    return [y, -x - y + 1 / 3 * x ^ 3]

/-- `ObstacleAvoidance` (experiments/benchmarks/models.py:362-384; `f_torch` 365-373, `f_smt` 375-384). -/
noncomputable def obstacleAvoidance : Bench where
  name := "ObstacleAvoidance"
  nVars := some 3
  nU := none
  controlled := false
  torch := fun v u => do
    let x ← item v 0
    let y ← item v 1
    let phi ← item v 2
    let velo : ℝ := 1
    return [velo * Real.sin phi, velo * Real.cos phi, -Real.sin phi + 3 * (x * Real.sin phi + y * Real.cos phi) / (0.5 + x ^ 2 + y ^ 2)]
  smt := fun lib v u => do
    let [x, y, phi] := v | throw .valueError
    let velo : Term := 1
    lib.need .sin
    lib.need .cos
    return [velo * Term.app .sin phi, velo * Term.app .cos phi, -Term.app .sin phi + 3 * (x * Term.app .sin phi + y * Term.app .cos phi) / (0.5 + x ^ 2 + y ^ 2)]

/-- `HighOrd4` (experiments/benchmarks/models.py:387-396; `f_torch` 390-392, `f_smt` 394-396). -/
noncomputable def highOrd4 : Bench where
  name := "HighOrd4"
  nVars := some 4
  nU := none
  controlled := false
  torch := fun v u => do
    let x0 ← item v 0
    let x1 ← item v 1
    let x2 ← item v 2
    let x3 ← item v 3
    return [x1, x2, x3, -3980 * x3 - 4180 * x2 - 2400 * x1 - 576 * x0]
  smt := fun lib v u => do
    let [x0, x1, x2, x3] := v | throw .valueError
    return [x1, x2, x3, -3980 * x3 - 4180 * x2 - 2400 * x1 - 576 * x0]

/-- `HighOrd6` (experiments/benchmarks/models.py:399-422; `f_torch` 402-411, `f_smt` 413-422). -/
noncomputable def highOrd6 : Bench where
  name := "HighOrd6"
  nVars := some 6
  nU := none
  controlled := false
  torch := fun v u => do
    let x0 ← item v 0
    let x1 ← item v 1
    let x2 ← item v 2
    let x3 ← item v 3
    let x4 ← item v 4
    let x5 ← item v 5
    return [x1, x2, x3, x4, x5, -800 * x5 - 2273 * x4 - 3980 * x3 - 4180 * x2 - 2400 * x1 - 576 * x0]
  smt := fun lib v u => do
    let [x0, x1, x2, x3, x4, x5] := v | throw .valueError
    return [x1, x2, x3, x4, x5, -800 * x5 - 2273 * x4 - 3980 * x3 - 4180 * x2 - 2400 * x1 - 576 * x0]

/-- `HighOrd8` (experiments/benchmarks/models.py:425-475; `f_torch` 428-455, `f_smt` 457-475). -/
noncomputable def highOrd8 : Bench where
  name := "HighOrd8"
  nVars := some 8
  nU := none
  controlled := false
  torch := fun v u => do
    let x0 ← item v 0
    let x1 ← item v 1
    let x2 ← item v 2
    let x3 ← item v 3
    let x4 ← item v 4
    let x5 ← item v 5
    let x6 ← item v 6
    let x7 ← item v 7
    return [x1, x2, x3, x4, x5, x6, x7, -20 * x7 - 170 * x6 - 800 * x5 - 2273 * x4 - 3980 * x3 - 4180 * x2 - 2400 * x1 - 576 * x0]
  smt := fun lib v u => do
    let [x0, x1, x2, x3, x4, x5, x6, x7] := v | throw .valueError
    return [x1, x2, x3, x4, x5, x6, x7, -20 * x7 - 170 * x6 - 800 * x5 - 2273 * x4 - 3980 * x3 - 4180 * x2 - 2400 * x1 - 576 * x0]

/-- `UnstableLinear` (experiments/benchmarks/models.py:478-487; `f_torch` 481-483, `f_smt` 485-487). -/
noncomputable def unstableLinear : Bench where
  name := "UnstableLinear"
  nVars := some 2
  nU := none
  controlled := false
  torch := fun v u => do
    let x ← item v 0
    let y ← item v 1
    return [-2 * x - y, 0.6 * y]
  smt := fun lib v u => do
    let [x, y] := v | throw .valueError
    return [-2 * x - y, 0.6 * y]

/-- `Car` (experiments/benchmarks/models.py:490-501; `f_torch` 493-495, `f_smt` 497-501). -/
noncomputable def car : Bench where
  name := "Car"
  nVars := some 3
  nU := none
  controlled := false
  torch := fun v u => do
    let x ← item v 0
    let y ← item v 1
    let omega ← item v 2
    return [Real.cos omega, Real.sin omega, omega]
  smt := fun lib v u => do
    let [x, y, omega] := v | throw .valueError
    lib.need .sin
    lib.need .cos
    return [Term.app .cos omega, Term.app .sin omega, omega]

/-- `SineModel` (experiments/benchmarks/models.py:504-530; `f_torch` 508-517, `f_smt` 519-530). -/
noncomputable def sineModel : Bench where
  name := "SineModel"
  nVars := some 2
  nU := some 2
  controlled := true
  torch := fun v u => do
    let x ← item v 0
    let y ← item v 1
    let u1 ← item u 0
    let u2 ← item u 1
    let G : ℝ := 9.81
    let L : ℝ := 0.5
    let m : ℝ := 0.15
    let b : ℝ := 0.1
    return [y + u1, u2 + (m * G * L * Real.sin x - b * y) / (m * L ^ 2)]
  smt := fun lib v u => do
    let [x, y] := v | throw .valueError
    let [u1, u2] := u | throw .valueError
    lib.need .sin
    lib.need .cos
    let G : Term := 9.81
    let L : Term := 0.5
    let m : Term := 0.15
    let b : Term := 0.1
    return [y + u1, u2 + (m * G * L * Term.app .sin x - b * y) / (m * L ^ 2)]

/-- `SineModelLQR` (experiments/benchmarks/models.py:533-561; `f_torch` 537-547, `f_smt` 549-561). -/
noncomputable def sineModelLQR : Bench where
  name := "SineModelLQR"
  nVars := some 2
  nU := none
  controlled := false
  torch := fun v u => do
    let K11' : ℝ := 0.33
    let K10' : ℝ := 1.34
    let K01' : ℝ := 1.34
    let K00' : ℝ := 7.21
    let x ← item v 0
    let y ← item v 1
    let u1 : ℝ := -K00' * x - K01' * y
    let u2 : ℝ := -K10' * x - K11' * y
    let G : ℝ := 9.81
    let L : ℝ := 0.5
    let m : ℝ := 0.15
    let b : ℝ := 0.1
    return [y + u1, u2 + (m * G * L * Real.sin x - b * y) / (m * L ^ 2)]
  smt := fun lib v u => do
    let K11' : Term := 0.33
    let K10' : Term := 1.34
    let K01' : Term := 1.34
    let K00' : Term := 7.21
    let [x, y] := v | throw .valueError
    let u1 : Term := -K00' * x - K01' * y
    let u2 : Term := -K10' * x - K11' * y
    lib.need .sin
    lib.need .cos
    let G : Term := 9.81
    let L : Term := 0.5
    let m : Term := 0.15
    let b : Term := 0.1
    return [y + u1, u2 + (m * G * L * Term.app .sin x - b * y) / (m * L ^ 2)]

/-- `LorenzSystem` (experiments/benchmarks/models.py:564-595; `f_torch` 568-580, `f_smt` 582-595). -/
noncomputable def lorenzSystem : Bench where
  name := "LorenzSystem"
  nVars := some 3
  nU := some 3
  controlled := true
  torch := fun v u => do
    let x1 ← item v 0
    let x2 ← item v 1
    let x3 ← item v 2
    let u1 ← item u 0
    let u2 ← item u 1
    let u3 ← item u 2
    let sigma : ℝ := 10.0
    let r : ℝ := 28.0
    let b : ℝ := 8.0 / 3.0
    return [-sigma * (x1 - x2) + u1, r * x1 - x2 - x1 * x3 + u2, x1 * x2 - b * x3 + u3]
  smt := fun lib v u => do
    let [x1, x2, x3] := v | throw .valueError
    let [u1, u2, u3] := u | throw .valueError
    let sigma : Term := 10.0
    let r : Term := 28.0
    let b : Term := 8.0 / 3.0
    return [-sigma * (x1 - x2) + u1, r * x1 - x2 - x1 * x3 + u2, x1 * x2 - b * x3 + u3]

/-- `CtrlCar` (experiments/benchmarks/models.py:598-611; `f_torch` 601-604, `f_smt` 606-611). -/
noncomputable def ctrlCar : Bench where
  name := "CtrlCar"
  nVars := some 3
  nU := none
  controlled := true
  torch := fun v u => do
    let x ← item v 0
    let y ← item v 1
    let omega ← item v 2
    let u1 ← item u 0
    let u2 ← item u 1
    let u3 ← item u 2
    return [Real.cos omega + u1, Real.sin omega + u2, omega + u3]
  smt := fun lib v u => do
    let [x, y, omega] := v | throw .valueError
    let [u1, u2, u3] := u | throw .valueError
    lib.need .sin
    lib.need .cos
    return [Term.app .cos omega + u1, Term.app .sin omega + u2, omega + u3]

/-- `CtrlObstacleAvoidance` (experiments/benchmarks/models.py:725-749; `f_torch` 729-737, `f_smt` 739-749). -/
noncomputable def ctrlObstacleAvoidance : Bench where
  name := "CtrlObstacleAvoidance"
  nVars := some 3
  nU := some 1
  controlled := true
  torch := fun v u => do
    let x ← item v 0
    let y ← item v 1
    let phi ← item v 2
    let u1 ← item u 0
    let velo : ℝ := 1
    return [velo * Real.sin phi, velo * Real.cos phi, -Real.sin phi + u1]
  smt := fun lib v u => do
    let [x, y, phi] := v | throw .valueError
    let [u1] := u | throw .valueError
    let velo : Term := 1
    lib.need .sin
    lib.need .cos
    return [velo * Term.app .sin phi, velo * Term.app .cos phi, -Term.app .sin phi + u1]

/-- `Identity` (experiments/benchmarks/models.py:752-764; `f_torch` 756-759, `f_smt` 761-764). -/
noncomputable def identity : Bench where
  name := "Identity"
  nVars := some 2
  nU := some 2
  controlled := true
  torch := fun v u => do
    let x ← item v 0
    let y ← item v 1
    let u1 ← item u 0
    let u2 ← item u 1
    return [x + u1, y + u2]
  smt := fun lib v u => do
    let [x, y] := v | throw .valueError
    let [u1, u2] := u | throw .valueError
    return [x + u1, y + u2]

/-- `DTAhmadi` (experiments/benchmarks/models.py:767-782; `f_torch` 774-777, `f_smt` 779-782). -/
noncomputable def dTAhmadi : Bench where
  name := "DTAhmadi"
  nVars := some 2
  nU := some 2
  controlled := true
  torch := fun v u => do
    let x ← item v 0
    let y ← item v 1
    let u1 ← item u 0
    let u2 ← item u 1
    return [0.3 * x + u1, -x + 0.5 * y + 7.0 / 18.0 * x ^ 2 + u2]
  smt := fun lib v u => do
    let [x, y] := v | throw .valueError
    let [u1, u2] := u | throw .valueError
    return [0.3 * x + u1, -x + 0.5 * y + 7.0 / 18.0 * x ^ 2 + u2]

/-- `DTAhmadi2` (experiments/benchmarks/models.py:786-799; `f_torch` 793-795, `f_smt` 797-799). -/
noncomputable def dTAhmadi2 : Bench where
  name := "DTAhmadi2"
  nVars := some 2
  nU := none
  controlled := false
  torch := fun v u => do
    let x ← item v 0
    let y ← item v 1
    return [0.687 * x + 0.558 * y - 0.0001 * x * y, -0.292 * x + 0.773 * y]
  smt := fun lib v u => do
    let [x, y] := v | throw .valueError
    return [0.687 * x + 0.558 * y - 0.0001 * x * y, -0.292 * x + 0.773 * y]

/-- `DebugDT` (experiments/benchmarks/models.py:802-812; `f_torch` 806-808, `f_smt` 810-812). -/
noncomputable def debugDT : Bench where
  name := "DebugDT"
  nVars := some 2
  nU := none
  controlled := false
  torch := fun v u => do
    let x ← item v 0
    let y ← item v 1
    return [0.5 * y, -0.1 * x]
  smt := fun lib v u => do
    let [x, y] := v | throw .valueError
    return [0.5 * y, -0.1 * x]

/-- `CtrlRoomTemp` (experiments/benchmarks/models.py:815-842; `f_torch` 830-835, `f_smt` 837-842). -/
noncomputable def ctrlRoomTemp : Bench where
  name := "CtrlRoomTemp"
  nVars := some 1
  nU := some 1
  controlled := true
  torch := fun v u => do
    let temp_h' : ℝ := 55
    let temp_e' : ℝ := 15
    let tau' : ℝ := 5 * 60
    let alpha_h' : ℝ := 3.6 * 1e-3
    let x ← item v 0
    let u1 ← item u 0
    return [x + tau' * (temp_e' - x + alpha_h' * (temp_h' - x) * u1)]
  smt := fun lib v u => do
    let temp_h' : Term := 55
    let temp_e' : Term := 15
    let tau' : Term := 5 * 60
    let alpha_h' : Term := 3.6 * 1e-3
    let x ← item v 0
    let u1 ← item u 0
    return [x + tau' * (temp_e' - x + alpha_h' * (temp_h' - x) * u1)]

/-- `JetEngineCompressor` (experiments/benchmarks/models.py:845-868; `f_torch` 856-861, `f_smt` 863-868). -/
noncomputable def jetEngineCompressor : Bench where
  name := "JetEngineCompressor"
  nVars := some 2
  nU := some 1
  controlled := true
  torch := fun v u => do
    let tau' : ℝ := 0.01
    let beta' : ℝ := 1.0
    let x1 ← item v 0
    let x2 ← item v 1
    let u1 ← item u 0
    let q1 : ℝ := x1 + tau' * (-x2 - 1.5 * x1 ^ 2 - 0.5 * x1 ^ 3)
    let q2 : ℝ := x2 + (1.0 / beta') ^ 2 * tau' * (x1 - u1)
    return [q1, q2]
  smt := fun lib v u => do
    let tau' : Term := 0.01
    let beta' : Term := 1.0
    let [x1, x2] := v | throw .valueError
    let u1 ← item u 0
    let q1 : Term := x1 + tau' * (-x2 - 1.5 * x1 ^ 2 - 0.5 * x1 ^ 3)
    let q2 : Term := x2 + (1.0 / beta') ^ 2 * tau' * (x1 - u1)
    return [q1, q2]

/-- `TwoRoomTemp` (experiments/benchmarks/models.py:871-917; `f_torch` 887-901, `f_smt` 903-917). -/
noncomputable def twoRoomTemp : Bench where
  name := "TwoRoomTemp"
  nVars := some 2
  nU := none
  controlled := false
  torch := fun v u => do
    let temp_e' : ℝ := 15
    let tau' : ℝ := 5
    let alpha_e2' : ℝ := 8 * 1e-3
    let alpha_e1' : ℝ := 5 * 1e-3
    let alpha' : ℝ := 5 * 1e-2
    let x1 ← item v 0
    let x2 ← item v 1
    let q1 : ℝ := (1 - tau' * (alpha' + alpha_e1')) * x1 + tau' * alpha' * x2 + tau' * alpha_e1' * temp_e'
    let q2 : ℝ := (1 - tau' * (1.0 * alpha' + alpha_e2')) * x2 + tau' * alpha' * x1 + tau' * alpha_e2' * temp_e'
    return [q1, q2]
  smt := fun lib v u => do
    let temp_e' : Term := 15
    let tau' : Term := 5
    let alpha_e2' : Term := 8 * 1e-3
    let alpha_e1' : Term := 5 * 1e-3
    let alpha' : Term := 5 * 1e-2
    let [x1, x2] := v | throw .valueError
    let q1 : Term := (1 - tau' * (alpha' + alpha_e1')) * x1 + tau' * alpha' * x2 + tau' * alpha_e1' * temp_e'
    let q2 : Term := (1 - tau' * (1.0 * alpha' + alpha_e2')) * x2 + tau' * alpha' * x1 + tau' * alpha_e2' * temp_e'
    return [q1, q2]

/-- `CtrlTwoRoomTemp` (experiments/benchmarks/models.py:920-972; `f_torch` 937-954, `f_smt` 956-972). -/
noncomputable def ctrlTwoRoomTemp : Bench where
  name := "CtrlTwoRoomTemp"
  nVars := some 2
  nU := some 2
  controlled := true
  torch := fun v u => do
    let temp_h' : ℝ := 55
    let temp_e' : ℝ := 15
    let tau' : ℝ := 5
    let alpha_h' : ℝ := 3.6 * 1e-3
    let alpha_e2' : ℝ := 8 * 1e-3
    let alpha_e1' : ℝ := 5 * 1e-3
    let alpha' : ℝ := 5 * 1e-2
    let x1 ← item v 0
    let x2 ← item v 1
    let u1 ← item u 0
    let u2 ← item u 1
    let q1 : ℝ := (1 - tau' * (alpha' + alpha_e1')) * x1 + tau' * alpha' * x2 + tau' * alpha_e1' * temp_e' + tau' * alpha_h' * (temp_h' - x1) * u1
    let q2 : ℝ := (1 - tau' * (1.0 * alpha' + alpha_e2')) * x2 + tau' * alpha' * x1 + tau' * alpha_e2' * temp_e' + tau' * alpha_h' * (temp_h' - x2) * u2
    return [q1, q2]
  smt := fun lib v u => do
    let temp_h' : Term := 55
    let temp_e' : Term := 15
    let tau' : Term := 5
    let alpha_h' : Term := 3.6 * 1e-3
    let alpha_e2' : Term := 8 * 1e-3
    let alpha_e1' : Term := 5 * 1e-3
    let alpha' : Term := 5 * 1e-2
    let [x1, x2] := v | throw .valueError
    let [u1, u2] := u | throw .valueError
    let q1 : Term := (1 - tau' * (alpha' + alpha_e1')) * x1 + tau' * alpha' * x2 + tau' * alpha_e1' * temp_e' + tau' * alpha_h' * (temp_h' - x1) * u1
    let q2 : Term := (1 - tau' * (1.0 * alpha' + alpha_e2')) * x2 + tau' * alpha' * x1 + tau' * alpha_e2' * temp_e' + tau' * alpha_h' * (temp_h' - x2) * u2
    return [q1, q2]

/-- `CtrlThermalConvection` (experiments/benchmarks/models.py:975-1002; `f_torch` 988-994, `f_smt` 996-1002). -/
noncomputable def ctrlThermalConvection : Bench where
  name := "CtrlThermalConvection"
  nVars := some 3
  nU := some 1
  controlled := true
  torch := fun v u => do
    let c' : ℝ := 8.0 / 3.0
    let b' : ℝ := 28.0
    let a' : ℝ := 10.0
    let T' : ℝ := 1e-3
    let x1 ← item v 0
    let x2 ← item v 1
    let x3 ← item v 2
    let u1 ← item u 0
    let q1 : ℝ := (1 - a' * T') * x1 + a' * T' * x2
    let q2 : ℝ := (1 - T') * x2 - T' * x1 * x3 + T' * b' * x1 + T' * u1
    let q3 : ℝ := (1 - c' * T') * x3 + T' * x1 * x2
    return [q1, q2, q3]
  smt := fun lib v u => do
    let c' : Term := 8.0 / 3.0
    let b' : Term := 28.0
    let a' : Term := 10.0
    let T' : Term := 1e-3
    let [x1, x2, x3] := v | throw .valueError
    let u1 ← item u 0
    let q1 : Term := (1 - a' * T') * x1 + a' * T' * x2
    let q2 : Term := (1 - T') * x2 - T' * x1 * x3 + T' * b' * x1 + T' * u1
    let q3 : Term := (1 - c' * T') * x3 + T' * x1 * x2
    return [q1, q2, q3]

/-- `Linear1` (experiments/benchmarks/models.py:1006-1018; `f_torch` 1010-1013, `f_smt` 1015-1018). -/
noncomputable def linear1 : Bench where
  name := "Linear1"
  nVars := some 2
  nU := some 1
  controlled := true
  torch := fun v u => do
    let x ← item v 0
    let y ← item v 1
    let u1 ← item u 0
    return [y, -x + u1]
  smt := fun lib v u => do
    let [x, y] := v | throw .valueError
    let [u1] := u | throw .valueError
    return [y, -x + u1]

/-- `Linear1LQR` (experiments/benchmarks/models.py:1021-1035; `f_torch` 1027-1030, `f_smt` 1032-1035). -/
noncomputable def linear1LQR : Bench where
  name := "Linear1LQR"
  nVars := some 2
  nU := none
  controlled := false
  torch := fun v u => do
    let K1' : ℝ := 1.352
    let K0' : ℝ := 0.414
    let x ← item v 0
    let y ← item v 1
    let u1 : ℝ := -(K0' * x + K1' * y)
    return [y, -x + u1]
  smt := fun lib v u => do
    let K1' : Term := 1.352
    let K0' : Term := 0.414
    let [x, y] := v | throw .valueError
    let u1 : Term := -(K0' * x + K1' * y)
    return [y, -x + u1]

/-- `SecondOrder` (experiments/benchmarks/models.py:1038-1050; `f_torch` 1042-1045, `f_smt` 1047-1050). -/
noncomputable def secondOrder : Bench where
  name := "SecondOrder"
  nVars := some 2
  nU := some 1
  controlled := true
  torch := fun v u => do
    let x ← item v 0
    let y ← item v 1
    let u1 ← item u 0
    return [y - x ^ 3, u1]
  smt := fun lib v u => do
    let [x, y] := v | throw .valueError
    let [u1] := u | throw .valueError
    return [y - x ^ 3, u1]

/-- `SecondOrderLQR` (experiments/benchmarks/models.py:1053-1065; `f_torch` 1057-1060, `f_smt` 1062-1065). -/
noncomputable def secondOrderLQR : Bench where
  name := "SecondOrderLQR"
  nVars := some 2
  nU := none
  controlled := false
  torch := fun v u => do
    let K1' : ℝ := 1.73
    let K0' : ℝ := 1.0
    let x ← item v 0
    let y ← item v 1
    let u1 : ℝ := -(K0' * x + K1' * y)
    return [y - x ^ 3, u1]
  smt := fun lib v u => do
    let K1' : Term := 1.73
    let K0' : Term := 1.0
    let [x, y] := v | throw .valueError
    let u1 : Term := -(K0' * x + K1' * y)
    return [y - x ^ 3, u1]

/-- `ThirdOrder` (experiments/benchmarks/models.py:1068-1080; `f_torch` 1072-1075, `f_smt` 1077-1080). -/
noncomputable def thirdOrder : Bench where
  name := "ThirdOrder"
  nVars := some 3
  nU := some 1
  controlled := true
  torch := fun v u => do
    let x1 ← item v 0
    let x2 ← item v 1
    let x3 ← item v 2
    let u1 ← item u 0
    return [-10 * x1 + 10 * x2 + u1, 28 * x1 - x2 - x1 * x3, x1 * x2 - 8 / 3 * x3]
  smt := fun lib v u => do
    let [x1, x2, x3] := v | throw .valueError
    let [u1] := u | throw .valueError
    return [-10 * x1 + 10 * x2 + u1, 28 * x1 - x2 - x1 * x3, x1 * x2 - 8 / 3 * x3]

/-- `ThirdOrderLQR` (experiments/benchmarks/models.py:1083-1095; `f_torch` 1087-1090, `f_smt` 1092-1095). -/
noncomputable def thirdOrderLQR : Bench where
  name := "ThirdOrderLQR"
  nVars := some 3
  nU := none
  controlled := false
  torch := fun v u => do
    let K2' : ℝ := 0.0
    let K1' : ℝ := 18.49
    let K0' : ℝ := 23.71
    let x1 ← item v 0
    let x2 ← item v 1
    let x3 ← item v 2
    let u1 : ℝ := -(K0' * x1 + K1' * x2 + K2' * x3)
    return [-10 * x1 + 10 * x2 + u1, 28 * x1 - x2 - x1 * x3, x1 * x2 - 8 / 3 * x3]
  smt := fun lib v u => do
    let K2' : Term := 0.0
    let K1' : Term := 18.49
    let K0' : Term := 23.71
    let [x1, x2, x3] := v | throw .valueError
    let u1 : Term := -(K0' * x1 + K1' * x2 + K2' * x3)
    return [-10 * x1 + 10 * x2 + u1, 28 * x1 - x2 - x1 * x3, x1 * x2 - 8 / 3 * x3]

/-- `LoktaVolterra` (experiments/benchmarks/models.py:1098-1110; `f_torch` 1104-1106, `f_smt` 1108-1110). -/
noncomputable def loktaVolterra : Bench where
  name := "LoktaVolterra"
  nVars := some 2
  nU := none
  controlled := false
  torch := fun v u => do
    let x ← item v 0
    let y ← item v 1
    return [0.6 * x - x * y, -0.6 * y + x * y]
  smt := fun lib v u => do
    let [x, y] := v | throw .valueError
    return [0.6 * x - x * y, -0.6 * y + x * y]

/-- `VanDerPol` (experiments/benchmarks/models.py:1113-1125; `f_torch` 1119-1121, `f_smt` 1123-1125). -/
noncomputable def vanDerPol : Bench where
  name := "VanDerPol"
  nVars := some 2
  nU := none
  controlled := false
  torch := fun v u => do
    let x ← item v 0
    let y ← item v 1
    return [y, -0.5 * (1 - x ^ 2) * y - x]
  smt := fun lib v u => do
    let [x, y] := v | throw .valueError
    return [y, -0.5 * (1 - x ^ 2) * y - x]

/-- `SheModel` (experiments/benchmarks/models.py:1128-1151; `f_torch` 1131-1140, `f_smt` 1142-1151). -/
noncomputable def sheModel : Bench where
  name := "SheModel"
  nVars := some 6
  nU := none
  controlled := false
  torch := fun v u => do
    let x1 ← item v 0
    let x2 ← item v 1
    let x3 ← item v 2
    let x4 ← item v 3
    let x5 ← item v 4
    let x6 ← item v 5
    return [x2 * x4 - x1 ^ 3, -3 * x1 * x4 - x2 ^ 3, -x3 - 3 * x1 * x4 ^ 3, -x4 + x1 * x3, -x5 + x6 ^ 3, -x5 - x6 + x3 ^ 4]
  smt := fun lib v u => do
    let [x1, x2, x3, x4, x5, x6] := v | throw .valueError
    return [x2 * x4 - x1 ^ 3, -3 * x1 * x4 - x2 ^ 3, -x3 - 3 * x1 * x4 ^ 3, -x4 + x1 * x3, -x5 + x6 ^ 3, -x5 - x6 + x3 ^ 4]

/-- `PapaPrajna6` (experiments/benchmarks/models.py:1154-1177; `f_torch` 1157-1166, `f_smt` 1168-1177). -/
noncomputable def papaPrajna6 : Bench where
  name := "PapaPrajna6"
  nVars := some 6
  nU := none
  controlled := false
  torch := fun v u => do
    let x1 ← item v 0
    let x2 ← item v 1
    let x3 ← item v 2
    let x4 ← item v 3
    let x5 ← item v 4
    let x6 ← item v 5
    return [-x1 ^ 3 + 4 * x2 ^ 3 - 6 * x3 * x4, -x1 - x2 + x5 ^ 3, x1 * x4 - x3 + x4 * x6, x1 * x3 + x3 * x6 - x4 ^ 3, -2 * x2 ^ 3 - x5 + x6, -3 * x3 * x4 - x5 ^ 3 - x6]
  smt := fun lib v u => do
    let [x1, x2, x3, x4, x5, x6] := v | throw .valueError
    return [-x1 ^ 3 + 4 * x2 ^ 3 - 6 * x3 * x4, -x1 - x2 + x5 ^ 3, x1 * x4 - x3 + x4 * x6, x1 * x3 + x3 * x6 - x4 ^ 3, -2 * x2 ^ 3 - x5 + x6, -3 * x3 * x4 - x5 ^ 3 - x6]

/-- `Quadrotor2d` (experiments/benchmarks/models.py:615-664; `f_torch` 627-647, `f_smt` 649-664). `qdot` and `qddot` are Python lists in
`f_torch`, and a list cannot be indexed by `[:, 0]`: TypeError. -/
noncomputable def quadrotor2d : Bench where
  name := "Quadrotor2d"
  nVars := some 6
  nU := some 2
  controlled := true
  torch := fun v u => do
    let u1 ← item u 0
    let u2 ← item u 1
    let q2 ← item (v.take 3) 2
    throw .typeError
  smt := fun lib v u => do
    let gravity' : Term := 9.81
    let inertia' : Term := 0.00383
    let length' : Term := 0.25
    let mass' : Term := 0.486
    lib.need .sin
    lib.need .cos
    let [u1, u2] := u | throw .valueError
    let q2 ← item (v.take 3) 2
    return v.drop 3 ++ [-Term.app .sin q2 / mass' * u1, Term.app .cos q2 / mass' * u1 - gravity', length' / inertia' * u2]

/-- `LinearSatellite` (experiments/benchmarks/models.py:668-722; `f_torch` 683-707, `f_smt` 709-722). -/
noncomputable def linearSatellite : Bench where
  name := "LinearSatellite"
  nVars := some 5
  nU := some 3
  controlled := true
  torch := fun v u => do
    let n' : ℝ := 3.986e14 / 42164e3 ^ 3
    let mass' : ℝ := 1.0
    let u1 ← item u 0
    let u2 ← item u 1
    let u3 ← item u 2
    let q0 ← item (v.take 3) 0
    let d1 ← item (v.drop 3) 1
    let d0 ← item (v.drop 3) 0
    let q2 ← item (v.take 3) 2
    let d2 ← item (v.drop 3) 2
    return [d0, d1, d2, 3.0 * n' ^ 2 * q0 - 2.0 * n' * d1 + u1 / mass', -2.0 * n' * d0 + u2 / mass', -n' ^ 2 * q2 + u3 / mass']
  smt := fun lib v u => do
    let n' : Term := 3.986e14 / 42164e3 ^ 3
    let mass' : Term := 1.0
    let [u1, u2, u3] := u | throw .valueError
    let q0 ← item (v.take 3) 0
    let d1 ← item (v.drop 3) 1
    let d0 ← item (v.drop 3) 0
    let q2 ← item (v.take 3) 2
    return v.drop 3 ++ [3.0 * n' ^ 2 * q0 - 2.0 * n' * d1 + u1 / mass', -2.0 * n' * d0 + u2 / mass', -n' ^ 2 * q2 + u3 / mass']

/-- The benchmark classes except `LinearDiscreteNVars` (below), in the order of the file (experiments/benchmarks/models.py:40-1177); the last two out of order. -/
noncomputable def all : List Bench := [
  linear0, nonPoly0, nonPoly1, nonPoly2, nonPoly3, benchmark0, benchmark1, benchmark2, benchmarkDT1, poly1, poly2, poly3, poly4,
  sriram4D, linearDiscrete, doubleLinearDiscrete, nonLinearDiscrete, barr1, barr2, barr3, obstacleAvoidance, highOrd4, highOrd6,
  highOrd8, unstableLinear, car, sineModel, sineModelLQR, lorenzSystem, ctrlCar, ctrlObstacleAvoidance, identity, dTAhmadi,
  dTAhmadi2, debugDT, ctrlRoomTemp, jetEngineCompressor, twoRoomTemp, ctrlTwoRoomTemp, ctrlThermalConvection, linear1, linear1LQR,
  secondOrder, secondOrderLQR, thirdOrder, thirdOrderLQR, loktaVolterra, vanDerPol, sheModel, papaPrajna6, quadrotor2d,
  linearSatellite]

end Bench

/-- `LinearDiscreteNVars.f_torch` on a batch (experiments/benchmarks/models.py:254-259) and the stacking in `_f_torch`
(control.py:69-71): `v[i]` for `i` in `range(len(v))` are the rows of the batch, so `torch.stack(...).T` is the transposed batch, halved. The two
columns read first must exist. -/
noncomputable def linearDiscreteNVarsTorch (v : List (List ℝ)) : List (List ℝ) :=
  [v.map (fun r => 0.5 * r.getD 0 0), v.map (fun r => 0.5 * r.getD 1 0)]

/-- `LinearDiscreteNVars.f_smt` (experiments/benchmarks/models.py:261-263). -/
def linearDiscreteNVarsSmt (v : List Term) : Except Err (List Term) := do
  let [x, y] := v | throw .valueError
  return [0.5 * x, 0.5 * y]

/-- `Eulerised.f` on tensors, one row (experiments/benchmarks/models.py:24-26): adding rows of different lengths is a RuntimeError (broadcasting
of one-element rows is not modelled). -/
noncomputable def eulerTorch (h : ℚ) (fc : List ℝ → Except Err (List ℝ)) (v : List ℝ) : Except Err (List ℝ) :=
  match fc v with
  | .error e => .error e
  | .ok f => if v.length = f.length then .ok (List.zipWith (fun v0 v1 => v0 + h * v1) v f) else .error .runtimeError

/-- `Eulerised.f` on lists of solver terms (experiments/benchmarks/models.py:27-29). -/
def eulerSmt (h : ℚ) (fc : List Term → Except Err (List Term)) (v : List Term) : Except Err (List Term) :=
  match fc v with
  | .error e => .error e
  | .ok f => .ok (List.zipWith (fun v0 v1 => v0 + .const h * v1) v f)

/-- A benchmark as a controllable model (control.py:134-187). -/
def Bench.openLoop (b : Bench) (lib : Lib) : OpenLoop := ⟨b.smt lib, b.torch⟩

/-- The sizes `GeneralClosedLoopModel.__init__` reads from the open loop (control.py:329-332): AttributeError if the class lacks one. -/
def Bench.closedSizes (b : Bench) : Except Err (ℕ × ℕ) :=
  match b.nVars with
  | none => .error .attributeError
  | some n =>
    match b.nU with
    | none => .error .attributeError
    | some m => .ok (n, m)

end Fossil

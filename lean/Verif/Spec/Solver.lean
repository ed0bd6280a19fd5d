/-
Specification of what is assumed of the external SMT solvers.
-/
import Verif.Verifier

namespace Fossil.Spec

/-- A z3/cvc5-style solver is refutation-sound: it answers `unsat` only for formulas without real solutions. -/
def RefutationSound (o : Oracle Answer) : Prop :=
  ∀ k φ, o k φ = .unsat → ∀ ρ : Env, ¬ φ.holds ρ

/-- The real assignment described by a model (variables without value: 0). -/
noncomputable def modelEnv (m : ℕ → Option MVal) : Env := fun i => match m i with
  | some (.rat q) => q
  | some (.alg x _) => x
  | none => 0

/-- The solver is model-sound: the model of a `sat` answer satisfies the formula. -/
def ModelSound (o : Oracle Answer) : Prop :=
  ∀ k φ m, o k φ = .sat m → φ.holds (modelEnv m)

/-- All variables of a term / formula have index below `n`. -/
def termBelow (n : ℕ) : Term → Prop
  | .var i => i < n
  | .const _ => True
  | .add a b | .sub a b | .mul a b | .div a b => termBelow n a ∧ termBelow n b
  | .neg a | .pow a _ | .app _ a => termBelow n a

def formulaBelow (n : ℕ) : Formula → Prop
  | .tt | .ff => True
  | .le a b | .lt a b | .eq a b => termBelow n a ∧ termBelow n b
  | .not φ => formulaBelow n φ
  | .and φ ψ | .or φ ψ => formulaBelow n φ ∧ formulaBelow n ψ

/-- Assignment given by a finite list of coordinates. -/
noncomputable def listEnv (l : List ℚ) : Env := fun i => ((l.getD i 0 : ℚ) : ℝ)

/-- The `(label, formula)` queries in the order in which the verifier would pose them. -/
def queries (groups : List (Dict String Formula)) : List (String × Formula) := groups.flatten

/-- No two queries share a label. -/
def DistinctLabels (groups : List (Dict String Formula)) : Prop := ((queries groups).map Prod.fst).Nodup

theorem term_congr {n : ℕ} {t : Term} (h : termBelow n t) {ρ σ : Env} (e : ∀ i < n, ρ i = σ i) :
    t.eval ρ = t.eval σ := by
  induction t with
  | var i => exact e i h
  | const c => rfl
  | add a b iha ihb | sub a b iha ihb | mul a b iha ihb | div a b iha ihb =>
    simp only [Term.eval, iha h.1, ihb h.2]
  | neg a ih | pow a k ih | app f a ih => simp only [Term.eval, ih h]

theorem formula_congr {n : ℕ} {φ : Formula} (h : formulaBelow n φ) {ρ σ : Env} (e : ∀ i < n, ρ i = σ i) :
    φ.holds ρ ↔ φ.holds σ := by
  induction φ with
  | tt | ff => rfl
  | le a b | lt a b | eq a b => simp only [Formula.holds, term_congr h.1 e, term_congr h.2 e]
  | not φ ih => simp only [Formula.holds, ih h]
  | and φ ψ ih1 ih2 | or φ ψ ih1 ih2 => simp only [Formula.holds, ih1 h.1, ih2 h.2]

end Fossil.Spec

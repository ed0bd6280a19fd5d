/- C57: which set expressions can be built, and which libraries can express them. -/
import Verif.Props.C21_Domains

namespace Fossil
open Spec

/-- **C57.** A set expression can be constructed exactly when it is the empty set itself, or the empty set occurs nowhere in it and the
shape conditions hold (outer radius above inner radius, beans in the plane). -/
theorem C57_constructible_iff (S : PySet) : (∃ d, S.construct = .ok d) ↔ S = .empty ∨ (noEmpty S ∧ ctorOk S) := by
  have key : ∀ S : PySet, (∃ d, S.construct = .ok (some d)) ↔ (noEmpty S ∧ ctorOk S) := by
    intro S
    induction S with
    | torus c ro ri ds =>
      simp only [PySet.construct, noEmpty, ctorOk, true_and]
      by_cases h : ri < ro <;> simp [h]
    | bean c r =>
      simp only [PySet.construct, noEmpty, ctorOk, true_and]
      by_cases h : c.length = 2 <;> simp [h]
    | union S T ihS ihT | inter S T ihS ihT | setMinus S T ihS ihT =>
      simp only [PySet.construct, noEmpty, ctorOk]
      rw [and_and_and_comm, ← ihS, ← ihT]
      rcases hS : S.construct with e | (_ | m) <;> rcases hT : T.construct with e' | (_ | k) <;>
        simp [bind, Except.bind, pure, Except.pure]
    | compl S ih =>
      simp only [PySet.construct, noEmpty, ctorOk]
      rw [← ih]
      rcases hS : S.construct with e | (_ | m) <;> simp [bind, Except.bind, pure, Except.pure]
    | _ => simp [PySet.construct, noEmpty, ctorOk]
  have none_iff : S.construct = .ok none ↔ S = .empty := by
    cases S with
    | torus c ro ri ds => simp only [PySet.construct]; by_cases h : ri < ro <;> simp [h]
    | bean c r => simp only [PySet.construct]; by_cases h : c.length = 2 <;> simp [h]
    | union S T | inter S T | setMinus S T =>
      simp only [PySet.construct]
      rcases hS : S.construct with e | (_ | m) <;> rcases hT : T.construct with e' | (_ | k) <;>
        simp [bind, Except.bind, pure, Except.pure]
    | compl S =>
      simp only [PySet.construct]
      rcases hS : S.construct with e | (_ | m) <;> simp [bind, Except.bind, pure, Except.pure]
    | _ => simp [PySet.construct]
  rw [← none_iff, ← key]
  constructor
  · rintro ⟨_ | d, h⟩
    · exact .inl h
    · exact .inr ⟨d, h⟩
  · rintro (h | ⟨d, h⟩)
    · exact ⟨_, h⟩
    · exact ⟨_, h⟩

/-- The parameter shapes the other theorems assume include the conditions the constructors check. -/
theorem ctorOk_of_wf {n : ℕ} {S : PySet} (h : WF n S) : ctorOk S := by
  induction S with
  | torus c ro ri ds => exact h.2.2.2
  | bean c r => exact h.1
  | union S T ihS ihT | inter S T ihS ihT | setMinus S T ihS ihT => exact ⟨ihS h.1, ihT h.2⟩
  | compl S ih => exact ih h
  | _ => trivial

/-- **C57 (libraries).** For a well-shaped expression the formula exists exactly when the library's function table has the constants the
expression needs; otherwise `generate_domain` raises KeyError. -/
theorem C57_library_support (b : Lib) (n : ℕ) (S : PySet) (hS : WF n S) :
    ((∃ φ, S.generateDomain b (vars n) = .ok φ) ↔ supports b S) ∧
      (¬ supports b S → S.generateDomain b (vars n) = .error .keyError) := by
  have hAnd : b.has .And = true := by cases b <;> rfl
  have hOr : b.has .Or = true := by cases b <;> rfl
  have hNot : b.has .Not = true := by cases b <;> rfl
  have bin : ∀ S T : PySet, (supports b (.union S T) ↔ supports b S ∧ supports b T) ∧ (supports b (.inter S T) ↔ supports b S ∧ supports b T) ∧
      (supports b (.setMinus S T) ↔ supports b S ∧ supports b T) ∧ (supports b (.compl S) ↔ supports b S) := by
    intro S T
    cases b <;> simp [supports, noEmpty, noReals] <;> tauto
  have err : ∀ S : PySet, WF n S → ¬ supports b S → S.generateDomain b (vars n) = .error .keyError := by
    intro S
    induction S with
    | empty => intro _ h; cases b <;> simp_all [supports, noEmpty, PySet.generateDomain, Lib.need, Lib.has, bind, Except.bind]
    | reals d => intro _ h; cases b <;> simp_all [supports, noEmpty, noReals, PySet.generateDomain, Lib.need, Lib.has, bind, Except.bind]
    | union S T ihS ihT =>
      intro hw h
      rw [(bin S T).1] at h
      by_cases h1 : supports b S
      · obtain ⟨φ, hφ, -⟩ := C21_domain_formula_denotes_set b n S hw.1 h1
        simp [PySet.generateDomain, Lib.need, hOr, hφ, ihT hw.2 (fun h2 => h ⟨h1, h2⟩), bind, Except.bind]
      · simp [PySet.generateDomain, Lib.need, hOr, ihS hw.1 h1, bind, Except.bind]
    | inter S T ihS ihT =>
      intro hw h
      rw [(bin S T).2.1] at h
      by_cases h1 : supports b S
      · obtain ⟨φ, hφ, -⟩ := C21_domain_formula_denotes_set b n S hw.1 h1
        simp [PySet.generateDomain, Lib.need, hAnd, hφ, ihT hw.2 (fun h2 => h ⟨h1, h2⟩), bind, Except.bind]
      · simp [PySet.generateDomain, Lib.need, hAnd, ihS hw.1 h1, bind, Except.bind]
    | setMinus S T ihS ihT =>
      intro hw h
      rw [(bin S T).2.2.1] at h
      by_cases h1 : supports b S
      · obtain ⟨φ, hφ, -⟩ := C21_domain_formula_denotes_set b n S hw.1 h1
        simp [PySet.generateDomain, Lib.need, hAnd, hNot, hφ, ihT hw.2 (fun h2 => h ⟨h1, h2⟩), bind, Except.bind]
      · simp [PySet.generateDomain, Lib.need, hAnd, ihS hw.1 h1, bind, Except.bind]
    | compl S ih =>
      intro hw h
      rw [(bin S S).2.2.2] at h
      simp [PySet.generateDomain, Lib.need, hNot, ih hw h, bind, Except.bind]
    | _ => intro _ h; exact absurd (by cases b <;> simp [supports, noEmpty, noReals]) h
  refine ⟨⟨fun ⟨φ, hφ⟩ => ?_, fun h => ?_⟩, err S hS⟩
  · by_contra hn
    rw [err S hS hn] at hφ
    cases hφ
  · obtain ⟨φ, hφ, -⟩ := C21_domain_formula_denotes_set b n S hS h
    exact ⟨φ, hφ⟩

/-- Non-vacuity: a nested expression that can be built; the same with an `EmptySet` operand cannot, although its parameters are well shaped. -/
example : (PySet.setMinus (.rectangle [-1, -1] [1, 1] none) (.torus [0, 0] 2 1 none)).construct = .ok (some 2) := by
  norm_num [PySet.construct, bind, Except.bind, pure, Except.pure]
example : WF 2 (.union (.sphere [0, 0] 1 none) .empty) ∧ (PySet.union (.sphere [0, 0] 1 none) .empty).construct = .error .attributeError := by
  refine ⟨by simp [WF, selCount, selOk], rfl⟩
/-- Non-vacuity: an expression cvc5 supports and sympy does not. -/
example : WF 2 (.compl (.reals 2)) ∧ supports .cvc5 (.compl (.reals 2)) ∧ ¬ supports .sympy (.compl (.reals 2)) := by
  simp [WF, supports, noEmpty, noReals]

end Fossil

/- C32: parsed dynamics mean what ordinary arithmetic says. -/
import Verif.Lemmas.Parser

namespace Fossil

open Spec

variable {funcs : FName → Bool}

theorem astExpr_of_par {ts : List Tok} {e : AExpr} (h : Par funcs 6 ts e) : astExpr funcs ts = .ok e := by
  obtain ⟨t, ht, hc⟩ := (lvlOk ts.length).1 6 ts e le_rfl le_rfl h [] (ts.length + 1) (stops_nil 6) (by simp)
  simp only [List.append_nil] at ht
  simp only [astExpr, parseAll, ht, convertDepth]
  rw [show 8 * ts.length + 8 = (8 * ts.length + 7) + 1 by omega, convertTree]
  exact hc _ (by omega)

/-- **C32 (partial).** Every token string that is an expression in ordinary notation, outside three patterns (a minus sign before
a power, bracketed text starting with a bracket group and a minus sign, a function argument starting with a bracket), is accepted,
and the expression built has the value ordinary arithmetic gives it, for all values of the variables. Any nesting, any length,
redundant brackets included. (An expression that divides by a constant zero has no meaning and is excluded.) -/
theorem C32_parse_ordinary_meaning_partial (ts : List Tok) (e : AExpr) (h : Denotes false funcs .sum ts e) (hz : ¬ DivByZero e) :
    ∃ v, parseExpr funcs ts = .ok v ∧ ∀ ρ μ, v.eval ρ μ = e.eval ρ μ := by
  obtain ⟨v, hv, he⟩ := par_of_denotes h
  exact ⟨v, by rw [parseExpr, astExpr_of_par hv, built_of_not fun k => hz (he.2.2.1 k)], he.1⟩

/-- The same as far as the value is concerned, whenever the text is accepted. -/
theorem parseExpr_meaning {ts : List Tok} {e v : AExpr} (h : Denotes false funcs .sum ts e) (hv : parseExpr funcs ts = .ok v) (ρ μ : ℕ → ℝ) :
    v.eval ρ μ = e.eval ρ μ := by
  obtain ⟨v', hv', he⟩ := par_of_denotes h
  have k := built_ok hv
  rw [astExpr_of_par hv'] at k
  cases k
  exact he.1 ρ μ

/-- Dividing one number by zero in the text is a ZeroDivisionError while parsing. -/
theorem C32_number_division_by_zero :
    parseExpr funcs [.x 0, .star, .num 1, .slash, .num 0] = .error .zeroDivision ∧
      Denotes false funcs .sum [.x 0, .star, .num 1, .slash, .num 0] (.div (.mul (.x 0) (.num 1)) (.num 0)) ∧
      DivByZero (.div (.mul (.x 0) (.num 1)) (.num 0)) := by
  refine ⟨?_, ?_, ?_⟩
  · have h : Par funcs 6 [.x 0, .star, .num 1, .slash, .num 0] (.mul (.x 0) (.div (.num 1) (.num 0))) :=
      .up (by decide) (.up (by decide) (.mul (a := [.x 0]) (.up (by decide) (.up (by decide) (.up (by decide) (.up (by decide) (.x 0)))))
        (.div (a := [.num 1]) (.up (by decide) (.up (by decide) (.up (by decide) (.num 1)))) (.up (by decide) (.up (by decide) (.num 0))))))
    rw [parseExpr, astExpr_of_par h]
    simp [built, AExpr.zeroDiv, AExpr.number, AExpr.val?]
  · exact .sum (.div (a := [.x 0, .star, .num 1]) (.mul (a := [.x 0]) (.term (.factor (.signed (.x 0)))) (.factor (.signed (.num 1))))
      (.factor (.signed (.num 0))))
  · exact Or.inr (Or.inr ⟨trivial, by simp [AExpr.eval]⟩)

/-- `a - 2*b + c/(d + 1)`, all of it built by the rules. -/
example : Denotes false drealFuncs .sum
    [.x 0, .minus, .num 2, .star, .x 1, .plus, .fn .sin, .lpar, .x 0, .plus, .x 1, .rpar, .slash, .lpar, .x 1, .minus, .num 1, .rpar]
    (.add (.sub (.x 0) (.mul (.num 2) (.x 1))) (.div (.app .sin (.add (.x 0) (.x 1))) (.sub (.x 1) (.num 1)))) := by
  have ot : ∀ {ts e}, Denotes false drealFuncs .operand ts e → Denotes false drealFuncs .term ts e :=
    fun h => .term (.factor (.signed h))
  have h1 : Denotes false drealFuncs .sum [.x 0] (.x 0) := .sum (ot (.x 0))
  have h2 : Denotes false drealFuncs .term ([.num 2] ++ .star :: [.x 1]) (.mul (.num 2) (.x 1)) :=
    .mul (ot (.num 2)) (.factor (.signed (.x 1)))
  have h3 : Denotes false drealFuncs .sum ([.x 0] ++ .plus :: [.x 1]) (.add (.x 0) (.x 1)) := .add h1 (ot (.x 1))
  have h4 : Denotes false drealFuncs .sum ([.x 1] ++ .minus :: [.num 1]) (.sub (.x 1) (.num 1)) :=
    .sub (.sum (ot (.x 1))) (ot (.num 1))
  have h5 := Denotes.div (ot (.call (f := .sin) h3 rfl (Or.inr (by simp))))
    (.factor (.signed (.brackets h4 (Or.inr trivial))))
  exact Denotes.add (Denotes.sub h1 h2) h5

/-- The notation is unambiguous in value: this follows because the parser is a function. -/
theorem C32_notation_unambiguous (ts : List Tok) (e e' : AExpr) (h : Denotes false funcs .sum ts e)
    (h' : Denotes false funcs .sum ts e') (ρ μ : ℕ → ℝ) : e.eval ρ μ = e'.eval ρ μ := by
  obtain ⟨v, hv, he⟩ := par_of_denotes h
  obtain ⟨v', hv', he'⟩ := par_of_denotes h'
  have k := astExpr_of_par hv
  rw [astExpr_of_par hv'] at k
  cases k
  rw [← he.1, he'.1]

theorem divByZero_neg_pow {e f : AExpr} (h : DivByZero (.pow (.neg e) f)) : DivByZero (.pow e f) := by
  simpa [DivByZero, Constant, AExpr.eval] using h

/-- **C32, the defect.** A minus sign in front of a power is taken into the base: `-a**b` is accepted and means `(-a)**b`, while in
ordinary notation it means `-(a**b)`. -/
theorem C32_minus_before_power_wrong (a b : List Tok) (e f : AExpr) (ha : Denotes false funcs .operand a e)
    (hb : Denotes false funcs .factor b f) (hz : ¬ DivByZero (.pow e f)) :
    (∃ v, parseExpr funcs (.minus :: a ++ .dstar :: b) = .ok v ∧
      ∀ ρ μ, v.eval ρ μ = (- e.eval ρ μ) ^ f.eval ρ μ) ∧
    Denotes true funcs .operand a e ∧ Denotes true funcs .factor b f ∧
      Denotes true funcs .sum (.minus :: a ++ .dstar :: b) (.neg (.pow e f)) := by
  obtain ⟨e', he, hev⟩ := par_of_denotes ha
  obtain ⟨f', hf, hfv⟩ := par_of_denotes hb
  have hfull : ∀ {c ts e}, Denotes false funcs c ts e → Denotes true funcs c ts e := by
    intro c ts e h
    induction h with
    | num q => exact .num q
    | x q => exact .x q
    | u q => exact .u q
    | brackets _ _ ih => exact .brackets ih (Or.inl rfl)
    | call _ hf _ ih => exact .call ih hf (Or.inl rfl)
    | signed _ ih => exact .signed ih
    | neg _ ih => exact .neg ih
    | factor _ ih => exact .factor ih
    | power _ _ ih ih' => exact .power ih ih'
    | negPower hf => cases hf
    | term _ ih => exact .term ih
    | mul _ _ ih ih' => exact .mul ih ih'
    | div _ _ ih ih' => exact .div ih ih'
    | sum _ ih => exact .sum ih
    | add _ _ ih ih' => exact .add ih ih'
    | sub _ _ ih ih' => exact .sub ih ih'
  have hz' : ¬ DivByZero (.pow (.neg e') f') := fun k => hz ((hev.pow hfv).2.2.1 (divByZero_neg_pow k))
  refine ⟨⟨.pow (.neg e') f', (congrArg built (astExpr_of_par ?_)).trans (built_of_not hz'), fun ρ μ => by simp [AExpr.eval, hev.1, hfv.1]⟩, hfull ha, hfull hb, ?_⟩
  · have := Par.pow (Par.neg (Par.up (by decide) he)) hf
    exact .up (by decide) (.up (by decide) (.up (by decide) (.up (by decide) this)))
  · exact .sum (.term (.negPower rfl (.power (hfull ha) (hfull hb))))

/-- In particular `-xi**2` is read as a non-negative number: the sign is wrong at every non-zero value. -/
theorem C32_minus_square_wrong (i : ℕ) :
    ∃ v, parseExpr funcs [.minus, .x i, .dstar, .num 2] = .ok v ∧
      Denotes true funcs .sum [.minus, .x i, .dstar, .num 2] (.neg (.pow (.x i) (.num 2))) ∧
      ∀ ρ μ, ρ i ≠ 0 → v.eval ρ μ ≠ (AExpr.neg (.pow (.x i) (.num 2))).eval ρ μ := by
  obtain ⟨⟨v, hv, he⟩, -, -, hd⟩ := C32_minus_before_power_wrong (funcs := funcs) [.x i] [.num 2] (.x i) (.num 2) (.x i)
    (.factor (.signed (.num 2))) (by simp [DivByZero, Constant])
  refine ⟨v, hv, hd, fun ρ μ h => ?_⟩
  rw [he]
  simp only [AExpr.eval]
  have h2 : ((2 : ℚ) : ℝ) = ((2 : ℕ) : ℝ) := by norm_num
  rw [h2, Real.rpow_natCast, Real.rpow_natCast]
  have : 0 < ρ i ^ 2 := by positivity
  intro hc
  nlinarith

/-- **C32, the defect.** Ordinary text whose brackets start with a bracket group followed by a minus sign raises TypeError. -/
theorem C32_bracket_minus_raises (i j : ℕ) :
    parseExpr funcs [.lpar, .lpar, .x i, .rpar, .minus, .x j, .rpar] = .error .typeError ∧
    Denotes true funcs .sum [.lpar, .lpar, .x i, .rpar, .minus, .x j, .rpar] (.sub (.x i) (.x j)) := by
  refine ⟨by simp [parseExpr, built, astExpr, parseAll, pegParse, pbin, punary, patom, pnested, pitems, pmany, convertDepth, convertTree], ?_⟩
  have ot : ∀ {ts e}, Denotes true funcs .operand ts e → Denotes true funcs .sum ts e :=
    fun h => .sum (.term (.factor (.signed h)))
  exact ot (.brackets (.sub (ot (.brackets (ot (.x i)) (Or.inl rfl))) (.term (.factor (.signed (.x j))))) (Or.inl rfl))

/-- **C32, the defect.** A function argument that starts with a bracket group and goes on is rejected. -/
theorem C32_call_bracket_rejected (i j : ℕ) (f : FName) (hf : funcs f = true) :
    parseExpr funcs [.fn f, .lpar, .lpar, .x i, .rpar, .plus, .x j, .rpar] = .error .valueError ∧
    Denotes true funcs .sum [.fn f, .lpar, .lpar, .x i, .rpar, .plus, .x j, .rpar] (.app f (.add (.x i) (.x j))) := by
  constructor
  · simp [parseExpr, built, astExpr, parseAll, pegParse, pbin, punary, patom, hf, pnested, pitems, pmany]
  · have ot : ∀ {ts e}, Denotes true funcs .operand ts e → Denotes true funcs .sum ts e :=
      fun h => .sum (.term (.factor (.signed h)))
    exact ot (.call (.add (ot (.brackets (ot (.x i)) (Or.inl rfl))) (.term (.factor (.signed (.x j))))) hf (Or.inl rfl))

end Fossil

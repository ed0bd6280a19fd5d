/- C32 on texts: what is written in a configuration file, character by character. -/
import Verif.Lemmas.TextParse
import Verif.Props.C32_Parser

namespace Fossil

open Spec

variable {funcs : FName → Bool}

/-- Tokens that can start an expression. -/
def Starts : Tok → Prop
  | .num _ | .x _ | .u _ | .fn _ | .lpar | .minus => True
  | _ => False

/-- Tokens that can end an expression. -/
def Ends : Tok → Prop
  | .num _ | .x _ | .u _ | .rpar => True
  | _ => False

/-- Neighbours whose texts cannot run together. -/
def Adj : Tok → Tok → Prop
  | .num _, b | .x _, b | .u _, b => ¬ Starts b ∨ b = .minus
  | .fn _, b => b = .lpar
  | .star, b => Starts b
  | .lpar, b => b ≠ .rpar
  | _, _ => True

/-- Shape of expressions as token strings. -/
structure Good (ts : List Tok) : Prop where
  ne : ts ≠ []
  starts : ∀ t, ts.head? = some t → Starts t
  ends : ∀ t, ts.getLast? = some t → Ends t
  chain : ts.IsChain Adj

theorem adj_of_ends {a b : Tok} (ha : Ends a) (hb : ¬ Starts b ∨ b = .minus) : Adj a b := by
  cases a <;> simp_all [Ends, Adj]

theorem adj_op {o b : Tok} (ho : o = .plus ∨ o = .minus ∨ o = .star ∨ o = .slash ∨ o = .dstar) (hb : Starts b) : Adj o b := by
  rcases ho with rfl | rfl | rfl | rfl | rfl <;> simp_all [Adj]

theorem good_bin {a b : List Tok} {o : Tok} (ha : Good a) (hb : Good b) (ho : o = .plus ∨ o = .minus ∨ o = .star ∨ o = .slash ∨ o = .dstar) :
    Good (a ++ o :: b) := by
  have ho' : ¬ Starts o ∨ o = .minus := by rcases ho with rfl | rfl | rfl | rfl | rfl <;> simp [Starts]
  refine ⟨by simp, ?_, ?_, ?_⟩
  · intro t ht
    rw [List.head?_append_of_ne_nil _ ha.ne] at ht
    exact ha.starts t ht
  · intro t ht
    rw [List.getLast?_append_of_ne_nil _ (by simp)] at ht
    have : (o :: b).getLast? = b.getLast? := by
      obtain ⟨c, b', rfl⟩ := List.exists_cons_of_ne_nil hb.ne
      simp [List.getLast?_cons_cons]
    exact hb.ends t (this ▸ ht)
  · rw [List.isChain_append]
    refine ⟨ha.chain, ?_, ?_⟩
    · rw [List.isChain_cons]
      exact ⟨fun y hy => adj_op ho (hb.starts y hy), hb.chain⟩
    · intro x hx y hy
      simp at hy
      subst hy
      exact adj_of_ends (ha.ends x hx) ho'

theorem good_minus {a : List Tok} (ha : Good a) : Good (.minus :: a) := by
  refine ⟨by simp, by simp [Starts], ?_, ?_⟩
  · intro t ht
    have : (Tok.minus :: a).getLast? = a.getLast? := by
      obtain ⟨c, b', rfl⟩ := List.exists_cons_of_ne_nil ha.ne
      simp [List.getLast?_cons_cons]
    exact ha.ends t (this ▸ ht)
  · rw [List.isChain_cons]
    exact ⟨fun y hy => trivial, ha.chain⟩

theorem good_brackets {a : List Tok} (ha : Good a) : Good (.lpar :: a ++ [.rpar]) := by
  refine ⟨by simp, by simp [Starts], fun t ht => ?_, ?_⟩
  · rw [List.getLast?_append_of_ne_nil _ (by simp)] at ht
    simp at ht
    subst ht
    trivial
  rw [List.isChain_append]
  refine ⟨?_, by simp, ?_⟩
  · rw [List.isChain_cons]
    exact ⟨fun y hy => by rintro rfl; exact ha.starts _ hy, ha.chain⟩
  · intro x hx y hy
    simp at hy
    subst hy
    have : (Tok.lpar :: a).getLast? = a.getLast? := by
      obtain ⟨c, b', rfl⟩ := List.exists_cons_of_ne_nil ha.ne
      simp [List.getLast?_cons_cons]
    exact adj_of_ends (ha.ends x (this ▸ hx)) (Or.inl (by simp [Starts]))

theorem good_of_denotes {full : Bool} {c : Cat} {ts : List Tok} {e : AExpr} (h : Denotes full funcs c ts e) : Good ts := by
  induction h with
  | num q | x i | u i => exact ⟨by simp, by simp [Starts], by simp [Ends], by simp⟩
  | brackets _ _ ih => exact good_brackets ih
  | @call f a e _ _ _ ih =>
    have := good_brackets ih
    refine ⟨by simp, by simp [Starts], ?_, ?_⟩
    · intro t ht
      rw [List.cons_append, List.cons_append, List.getLast?_cons_cons] at ht
      exact this.ends t ht
    · rw [List.cons_append, List.isChain_cons]
      exact ⟨fun y hy => by simp at hy; subst hy; rfl, this.chain⟩
  | signed _ ih | factor _ ih | term _ ih | sum _ ih => exact ih
  | neg _ ih | negPower _ _ ih => exact good_minus ih
  | power _ _ i1 i2 | mul _ _ i1 i2 | div _ _ i1 i2 | add _ _ i1 i2 | sub _ _ i1 i2 => exact good_bin i1 i2 (by simp)

theorem good_of_tight {c : Cat} {ts : List Tok} {e : AExpr} (h : Tight funcs c ts e) : Good ts := by
  induction h with
  | num q | x i | u i => exact ⟨by simp, by simp [Starts], by simp [Ends], by simp⟩
  | brackets _ ih => exact good_brackets ih
  | @call f a e _ _ ih =>
    have := good_brackets ih
    refine ⟨by simp, by simp [Starts], ?_, ?_⟩
    · intro t ht
      rw [List.cons_append, List.cons_append, List.getLast?_cons_cons] at ht
      exact this.ends t ht
    · rw [List.cons_append, List.isChain_cons]
      exact ⟨fun y hy => by simp at hy; subst hy; rfl, this.chain⟩
  | signed _ ih | factor _ ih | term _ ih | sum _ ih => exact ih
  | neg _ ih => exact good_minus ih
  | power _ _ i1 i2 | mul _ _ i1 i2 | div _ _ i1 i2 | add _ _ i1 i2 | sub _ _ i1 i2 => exact good_bin i1 i2 (by simp)

theorem follows_head {t : Tok} {s : List Char} (h : HeadIs (fun c => c = ' ' ∨ c = '\t' ∨ c = '\n' ∨ c = '\r') s) : Follows t s := by
  cases t <;> simp only [Follows]
  all_goals
    intro c hc
    rcases h c hc with rfl | rfl | rfl | rfl <;> decide

theorem follows_adj {t t' : Tok} {w txt s : List Char} (hw : Blank w) (ht : TokText t' txt) (ha : Adj t t') : Follows t (w ++ txt ++ s) := by
  cases w with
  | cons a w => exact follows_head (by intro c hc; simp at hc; subst hc; exact hw a (by simp))
  | nil =>
    have star : Starts t' → HeadIs (fun c => c ≠ '*') ([] ++ txt ++ s) := by
      intro hs
      obtain ⟨c, r, rfl, -, -, -, -, -, -, -, -, -, h1⟩ := tok_head ht
      intro c' hc'
      simp at hc'
      subst hc'
      intro e
      rcases h1.1 e with rfl | rfl <;> simp [Starts] at hs
    have op : (¬ Starts t' ∨ t' = .minus) → EndsNum ([] ++ txt ++ s) := by
      intro h
      cases ht <;> simp [Starts] at h <;> (intro c hc; simp at hc; subst hc; decide)
    cases t <;> simp only [Adj] at ha <;> simp only [Follows]
    · exact op ha
    · exact fun c hc => (op ha c hc).1
    · exact fun c hc => (op ha c hc).1
    · subst ha
      cases ht
      intro c hc
      simp at hc
      subst hc
      decide
    · exact star ha

theorem sp_of_layout : ∀ (ts : List Tok) (txts : List (List Char)) (s : List Char), List.Forall₂ TokText ts txts → Layout txts s →
    ts.IsChain Adj → Sp ts s := by
  intro ts
  induction ts with
  | nil =>
    intro txts s h hl _
    cases h
    exact .nil hl
  | cons t ts ih =>
    intro txts s h hl hc
    cases h with
    | @cons _ txt _ txts ht h =>
      obtain ⟨w, s', hw, rfl, hl⟩ := hl
      rw [List.isChain_cons] at hc
      refine .cons hw ht ?_ (ih txts s' h hl hc.2)
      cases h with
      | nil => exact follows_head (fun c hc => hl c (List.mem_of_mem_head? hc))
      | cons ht' h' =>
        obtain ⟨w', s'', hw', rfl, -⟩ := hl
        exact follows_adj hw' ht' (hc.1 _ (by simp))

theorem sp_length : ∀ {ts : List Tok} {s : List Char}, Sp ts s → ts.length ≤ s.length := by
  intro ts s h
  induction h with
  | nil => simp
  | cons hw ht hf h ih =>
    obtain ⟨c, r, rfl, -⟩ := tok_head ht
    simp
    omega

theorem astText_of_par {ts : List Tok} {e : AExpr} {s : String} (h : Par funcs 6 ts e) (hs : Sp ts s.toList) : astText funcs s = .ok e := by
  have hlen := sp_length hs
  obtain ⟨t, ht, hc⟩ := (lvlOk ts.length).1 6 ts e le_rfl le_rfl h [] (s.toList.length + 1) (stops_nil 6) (by simp; omega)
  simp only [List.append_nil] at ht
  have := peg_sim funcs (s.toList.length + 1) (.lvl 6) ts s.toList hs
  rw [ht] at this
  obtain ⟨cr, h1, h2⟩ := this
  cases h2 with
  | nil hb =>
    rw [astText, h1]
    simp only [skipWs_nil_of_blank hb, if_true]
    rw [show 8 * s.toList.length + 8 = (8 * s.toList.length + 7) + 1 by omega, convertTree]
    exact hc _ (by omega)

/-- **C32 on texts (partial).** Take any expression in ordinary notation outside three patterns (a minus sign before a power, bracketed text
starting with a bracket group and a minus sign, a function argument starting with a bracket), written in any way: numbers with or without
fraction, blanks and line ends anywhere between the symbols or none at all. The text is accepted, and the expression built has the value
ordinary arithmetic gives it, for all values of the variables. (An expression that divides by a constant zero has no meaning and is excluded.) -/
theorem C32_text_ordinary_meaning_partial (ts : List Tok) (e : AExpr) (s : String) (h : Denotes false funcs .sum ts e) (hs : Spells ts s)
    (hz : ¬ DivByZero e) :
    ∃ v, parseText funcs s = .ok v ∧ ∀ ρ μ, v.eval ρ μ = e.eval ρ μ := by
  obtain ⟨txts, h1, h2⟩ := hs
  obtain ⟨v, hv, he⟩ := par_of_denotes h
  exact ⟨v, by rw [parseText, astText_of_par hv (sp_of_layout ts txts _ h1 h2 (good_of_denotes h).chain), built_of_not fun k => hz (he.2.2.1 k)], he.1⟩

theorem parseText_meaning {ts : List Tok} {e v : AExpr} {s : String} (h : Denotes false funcs .sum ts e) (hs : Spells ts s)
    (hv : parseText funcs s = .ok v) (ρ μ : ℕ → ℝ) : v.eval ρ μ = e.eval ρ μ := by
  obtain ⟨txts, h1, h2⟩ := hs
  obtain ⟨v', hv', he⟩ := par_of_denotes h
  have k := built_ok hv
  rw [astText_of_par hv' (sp_of_layout ts txts _ h1 h2 (good_of_denotes h).chain)] at k
  cases k
  exact he.1 ρ μ

/-- The text `x0 -1.5*x12`, written with and without blanks, and its tokens. -/
theorem example_spells : Spells [.x 0, .minus, .num (3 / 2), .star, .x 12] "x0 -1.5*x12" := by
  have dig : ∀ l : List Char, l ≠ [] → (l.all fun c => decide ('0' ≤ c) && decide (c ≤ '9')) = true → Digits l := by
    intro l h0 h
    refine ⟨h0, fun c hc => ?_⟩
    have := List.all_eq_true.1 h c hc
    simpa using this
  refine ⟨[['x', '0'], ['-'], ['1', '.', '5'], ['*'], ['x', '1', '2']], ?_, ?_⟩
  · refine .cons ?_ (.cons .minus (.cons ?_ (.cons .star (.cons ?_ .nil))))
    · exact TokText.x (d := ['0']) ⟨dig _ (by simp) (by decide), Or.inl rfl⟩
    · have := Numeral.dec (a := ['1']) (b := ['5']) (dig _ (by simp) (by decide)) (dig _ (by simp) (by decide))
      have e : (digitsValue ['1'] : ℚ) + digitsValue ['5'] / 10 ^ ['5'].length = 3 / 2 := by
        have h1 : digitsValue ['1'] = 1 := by decide
        have h5 : digitsValue ['5'] = 5 := by decide
        rw [h1, h5]
        norm_num
      rw [e] at this
      exact .num this
    · exact TokText.x (d := ['1', '2']) ⟨dig _ (by simp) (by decide), Or.inr (by decide)⟩
  · refine ⟨[], [' ', '-', '1', '.', '5', '*', 'x', '1', '2'], by simp [Blank], by decide, [' '], ['1', '.', '5', '*', 'x', '1', '2'], by simp [Blank],
      by decide, [], ['*', 'x', '1', '2'], by simp [Blank], by decide, [], ['x', '1', '2'], by simp [Blank], by decide, [], [], by simp [Blank], by decide, ?_⟩
    simp [Layout, Blank]

example : ∃ v, parseText drealFuncs "x0 -1.5*x12" = .ok v ∧
    ∀ ρ μ : ℕ → ℝ, v.eval ρ μ = ρ 0 - ((3 / 2 : ℚ) : ℝ) * ρ 12 := by
  obtain ⟨v, hv, he⟩ := C32_text_ordinary_meaning_partial (funcs := drealFuncs) _ (.sub (.x 0) (.mul (.num (3 / 2)) (.x 12))) _
    (.sub (a := [.x 0]) (b := [.num (3 / 2), .star, .x 12]) (.sum (.term (.factor (.signed (.x 0)))))
      (.mul (a := [.num (3 / 2)]) (b := [.x 12]) (.term (.factor (.signed (.num _)))) (.factor (.signed (.x 12))))) example_spells (by simp [DivByZero])
  exact ⟨v, hv, fun ρ μ => by rw [he]; rfl⟩

/-- **C32 on texts, the defect.** However `-a**b` is written, the text is accepted and means `(-a)**b`, while in ordinary notation it means
`-(a**b)`. -/
theorem C32_text_minus_before_power_wrong (a b : List Tok) (e f : AExpr) (s : String) (ha : Denotes false funcs .operand a e)
    (hb : Denotes false funcs .factor b f) (hs : Spells (.minus :: a ++ .dstar :: b) s)
    (hz : ¬ DivByZero (.pow e f)) :
    (∃ v, parseText funcs s = .ok v ∧ ∀ ρ μ, v.eval ρ μ = (- e.eval ρ μ) ^ f.eval ρ μ) ∧
      Denotes true funcs .sum (.minus :: a ++ .dstar :: b) (.neg (.pow e f)) := by
  obtain ⟨-, -, -, hd⟩ := C32_minus_before_power_wrong a b e f ha hb hz
  obtain ⟨e', he, hev⟩ := par_of_denotes ha
  obtain ⟨f', hf, hfv⟩ := par_of_denotes hb
  obtain ⟨txts, h1, h2⟩ := hs
  have hz' : ¬ DivByZero (.pow (.neg e') f') := fun k => hz ((hev.pow hfv).2.2.1 (divByZero_neg_pow k))
  refine ⟨⟨.pow (.neg e') f', (congrArg built (astText_of_par ?_ (sp_of_layout _ txts _ h1 h2 (good_of_denotes hd).chain))).trans (built_of_not hz'),
    fun ρ μ => by simp [AExpr.eval, hev.1, hfv.1]⟩, hd⟩
  have := Par.pow (Par.neg (Par.up (by decide) he)) hf
  exact .up (by decide) (.up (by decide) (.up (by decide) (.up (by decide) this)))

end Fossil

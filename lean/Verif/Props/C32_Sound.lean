/- C32, the other direction: what an accepted text means. -/
import Verif.Props.C32_Text
import Verif.Lemmas.TextGood

namespace Fossil
open Spec

variable {funcs : FName → Bool}

/-- A text has one sequence of tokens. -/
theorem sp_unique : ∀ {ts ts' : List Tok} {s s' : List Char}, s = s' → Sp ts s → Sp ts' s' → ts = ts' := by
  intro ts ts' s s' e h
  induction h generalizing ts' s' with
  | nil hb =>
    intro h'
    cases h' with
    | nil => rfl
    | cons hw ht hf h' =>
      obtain ⟨c, r, rfl, hc, -⟩ := tok_head ht
      have : c ∈ _ := e ▸ (by simp : c ∈ _ ++ c :: r ++ _)
      rw [isWs_iff.2 (hb c this)] at hc
      cases hc
  | @cons w t txt ts s hw ht hf h ih =>
    intro h'
    cases h' with
    | nil hb =>
      obtain ⟨c, r, rfl, hc, -⟩ := tok_head ht
      have : c ∈ _ := e.symm ▸ (by simp : c ∈ w ++ c :: r ++ s)
      rw [isWs_iff.2 (hb c this)] at hc
      cases hc
    | @cons w' t' txt' ts' s' hw' ht' hf' h' =>
      have fin : t = t' ∧ s = s' := by
        cases t with
        | num q =>
          have h1 := (number_tok hw ht hf).1 q rfl
          rw [e] at h1
          by_cases h2 : ∃ q', t' = .num q'
          · obtain ⟨q', rfl⟩ := h2
            rw [(number_tok hw' ht' hf').1 q' rfl] at h1
            simp only [Option.some.injEq, Prod.mk.injEq] at h1
            exact ⟨by rw [h1.1], h1.2.symm⟩
          · rw [(number_tok hw' ht' hf').2 (fun q' e' => h2 ⟨q', e'⟩)] at h1; cases h1
        | x i =>
          have h1 := (varx_tok hw ht hf).1 i rfl
          rw [e] at h1
          by_cases h2 : ∃ q', t' = .x q'
          · obtain ⟨q', rfl⟩ := h2
            rw [(varx_tok hw' ht' hf').1 q' rfl] at h1
            simp only [Option.some.injEq, Prod.mk.injEq] at h1
            exact ⟨by rw [h1.1], h1.2.symm⟩
          · rw [(varx_tok hw' ht' hf').2 (fun q' e' => h2 ⟨q', e'⟩)] at h1; cases h1
        | u i =>
          have h1 := (varu_tok hw ht hf).1 i rfl
          rw [e] at h1
          by_cases h2 : ∃ q', t' = .u q'
          · obtain ⟨q', rfl⟩ := h2
            rw [(varu_tok hw' ht' hf').1 q' rfl] at h1
            simp only [Option.some.injEq, Prod.mk.injEq] at h1
            exact ⟨by rw [h1.1], h1.2.symm⟩
          · rw [(varu_tok hw' ht' hf').2 (fun q' e' => h2 ⟨q', e'⟩)] at h1; cases h1
        | fn f =>
          have h1 := (fn_tok drealFuncs hw ht hf).1 f rfl
          rw [e] at h1
          by_cases h2 : ∃ q', t' = .fn q'
          · obtain ⟨q', rfl⟩ := h2
            rw [(fn_tok drealFuncs hw' ht' hf').1 q' rfl] at h1
            simp only [drealFuncs, if_true, Option.some.injEq, Prod.mk.injEq] at h1
            exact ⟨by rw [h1.1], h1.2.symm⟩
          · rw [(fn_tok drealFuncs hw' ht' hf').2 (fun q' e' => h2 ⟨q', e'⟩)] at h1; simp [drealFuncs] at h1
        | lpar =>
          have h1 := lit_lpar (s := s) hw ht
          rw [e, lit_lpar hw' ht', if_pos rfl] at h1
          split_ifs at h1 with h2
          exact ⟨h2.symm, by simpa using h1.symm⟩
        | rpar =>
          have h1 := lit_rpar (s := s) hw ht
          rw [e, lit_rpar hw' ht', if_pos rfl] at h1
          split_ifs at h1 with h2
          exact ⟨h2.symm, by simpa using h1.symm⟩
        | plus =>
          have h1 := lit_plus (s := s) hw ht
          rw [e, lit_plus hw' ht', if_pos rfl] at h1
          split_ifs at h1 with h2
          exact ⟨h2.symm, by simpa using h1.symm⟩
        | minus =>
          have h1 := lit_minus (s := s) hw ht
          rw [e, lit_minus hw' ht', if_pos rfl] at h1
          split_ifs at h1 with h2
          exact ⟨h2.symm, by simpa using h1.symm⟩
        | slash =>
          have h1 := lit_slash (s := s) hw ht
          rw [e, lit_slash hw' ht', if_pos rfl] at h1
          split_ifs at h1 with h2
          exact ⟨h2.symm, by simpa using h1.symm⟩
        | dstar =>
          have h1 := lit_dstar hw ht hf
          rw [e, lit_dstar hw' ht' hf', if_pos rfl] at h1
          split_ifs at h1 with h2
          exact ⟨h2.symm, by simpa using h1.symm⟩
        | star =>
          have h0 := lit_dstar hw ht hf
          rw [e, lit_dstar hw' ht' hf'] at h0
          have h1 := lit_star (s := s) hw ht
          rw [e, lit_star hw' ht', if_pos rfl] at h1
          have h3 : t' ≠ .dstar := by rintro rfl; simp at h0
          rw [if_neg h3] at h1
          split_ifs at h1 with h2
          exact ⟨h2.symm, by simpa using h1.symm⟩
      rw [fin.1, ih fin.2 h']

theorem nb_of_chain {ts : List Tok} (h : ts.IsChain Adj) : NB ts := by
  rintro p r rfl
  have := (List.isChain_append.1 h).2.1
  rw [List.isChain_cons] at this
  exact this.1 _ rfl rfl

theorem tokText_lpar {t : Tok} {txt : List Char} (h : TokText t txt) (hm : '(' ∈ txt) : t = .lpar ∧ txt = ['('] := by
  have dig : ∀ d : List Char, Digits d → '(' ∉ d := fun d hd hc => by have := hd.2 _ hc; revert this; decide
  cases h with
  | num h =>
    cases h with
    | int h => exact absurd hm (dig _ h)
    | dec h h' =>
      rcases List.mem_append.1 hm with h1 | h1
      · exact absurd h1 (dig _ h)
      · rcases List.mem_cons.1 h1 with h2 | h2
        · exact absurd h2 (by decide)
        · exact absurd h2 (dig _ h')
  | x h => rcases List.mem_cons.1 hm with h2 | h2; (· exact absurd h2 (by decide)); exact absurd h2 (dig _ h.1)
  | u h => rcases List.mem_cons.1 hm with h2 | h2; (· exact absurd h2 (by decide)); exact absurd h2 (dig _ h.1)
  | fn f => cases f <;> revert hm <;> decide
  | lpar => exact ⟨rfl, rfl⟩
  | _ => revert hm; decide

/-- Tokens without an empty pair of brackets are written without one. -/
theorem noEmpty_of_layout : ∀ (ts : List Tok) (txts : List (List Char)) (s : List Char), List.Forall₂ TokText ts txts → Layout txts s → NB ts →
    ∀ p w r, Blank w → s ≠ p ++ '(' :: w ++ ')' :: r := by
  intro ts
  induction ts with
  | nil =>
    intro txts s h hl _ p w r _ e
    cases h
    have := hl '(' (by rw [e]; simp)
    revert this; decide
  | cons t ts ih =>
    intro txts s h hl hnb p w r hw e
    cases h with
    | @cons _ txt _ txts ht hts =>
      obtain ⟨w0, s', hw0, rfl, hl'⟩ := hl
      have e' : (w0 ++ txt) ++ s' = p ++ ('(' :: (w ++ ')' :: r)) := by simpa using e
      rcases List.append_eq_append_iff.1 e' with ⟨m, h1, h2⟩ | ⟨m, h1, h2⟩
      · exact ih txts s' hts hl' (NB.right (a := [t]) hnb) m w r hw (by simpa using h2)
      · cases m with
        | nil =>
          simp only [List.nil_append] at h2
          exact ih txts s' hts hl' (NB.right (a := [t]) hnb) [] w r hw (by simpa using h2.symm)
        | cons c m =>
          simp only [List.cons_append, List.cons.injEq] at h2
          obtain ⟨rfl, h2⟩ := h2
          have hm : '(' ∈ txt := by
            have : '(' ∈ w0 ++ txt := by rw [h1]; simp
            rcases List.mem_append.1 this with h3 | h3
            · exact absurd (hw0 _ h3) (by decide)
            · exact h3
          obtain ⟨rfl, rfl⟩ := tokText_lpar ht hm
          have hm0 : m = [] := by
            rcases List.eq_nil_or_concat m with h3 | ⟨m', c, rfl⟩
            · exact h3
            · exfalso
              rw [List.concat_eq_append, show p ++ '(' :: (m' ++ [c]) = (p ++ '(' :: m') ++ [c] by simp] at h1
              have h4 := List.append_inj_left' h1 rfl
              have := hw0 '(' (by rw [h4]; simp)
              revert this; decide
          subst hm0
          simp only [List.nil_append] at h2
          cases hts with
          | nil =>
            have := hl' ')' (by rw [← h2]; simp)
            revert this; decide
          | @cons t1 txt1 ts1 txts1 ht1 hts1 =>
            obtain ⟨w1, s1, hw1, rfl, hl1⟩ := hl'
            have h3 := skip_tok (s := s1) hw1 ht1
            have h4 := skip_tok (t := .rpar) (s := r) hw .rpar
            have h5 : w ++ [')'] ++ r = w1 ++ txt1 ++ s1 := by rw [← h2]; simp
            rw [h5, h3] at h4
            obtain ⟨c, q, rfl, -, -, -, -, -, h6, -⟩ := tok_head ht1
            simp only [List.cons_append, List.nil_append, List.cons.injEq] at h4
            have := h6.1 h4.1
            subst this
            exact hnb [] ts1 rfl

/-- What an accepted text is, with the variables of the result. -/
theorem accepted_reading (s : String) (v : AExpr) (hs : NoEmptyBrackets s) (h : parseText funcs s = .ok v) :
    ∃ ts e, Spells ts s ∧ Tight funcs .sum ts e ∧ Sim v e ∧ v.xs = xToks ts ∧ v.us = uToks ts := by
  replace h := built_ok h
  unfold astText at h
  rcases hp : pegC funcs (s.toList.length + 1) (.lvl 6) s.toList with _ | ⟨t, r⟩
  · rw [hp] at h; cases h
  · rw [hp] at h
    simp only at h
    split_ifs at h with hr
    obtain ⟨ts, h1, h2⟩ := (pegC_sound (s.toList.length + 1)).2 6 le_rfl _ _ _ (by omega) hp
    have hb : Blank r := by
      obtain ⟨w, hw, e⟩ := skipWs_spec r
      rw [hr, List.append_nil] at e
      rw [e]; exact hw
    have g := h2 (h1.nb hs)
    have : ∃ n, convertTree n t = .ok v := by
      rw [show 8 * s.toList.length + 8 = (8 * s.toList.length + 7) + 1 by omega, convertTree] at h
      exact ⟨_, h⟩
    obtain ⟨n, hn⟩ := this
    obtain ⟨e, h3, h4⟩ := lvlV (g.conv n v hn)
    exact ⟨ts, e, h1.layout hb, h3, h4.symm, (g.conv n v hn).vars⟩

/-- **C32, converse.** Whatever text the parser accepts — a text without an empty pair of brackets — is an expression in ordinary notation except that a
minus sign binds tighter than `**`, and the expression it returns has that value everywhere. -/
theorem C32_text_accepted_meaning (s : String) (v : AExpr) (hs : NoEmptyBrackets s) (h : parseText funcs s = .ok v) :
    ∃ ts e, Spells ts s ∧ Tight funcs .sum ts e ∧ ∀ ρ μ, v.eval ρ μ = e.eval ρ μ := by
  obtain ⟨ts, e, h1, h2, h3, -⟩ := accepted_reading s v hs h
  exact ⟨ts, e, h1, h2, fun ρ μ => (h3 ρ μ).1⟩

/-- Two readings of the same tokens have the same value everywhere and are smooth at the same places. -/
theorem tight_sim {ts : List Tok} {e e' : AExpr} (h : Tight funcs .sum ts e) (h' : Tight funcs .sum ts e') : Sim e e' := by
  obtain ⟨v, hv, h1⟩ := par_pad h
  obtain ⟨v', hv', h2⟩ := par_pad h'
  have h3 := astExpr_of_par hv
  have h4 := astExpr_of_par hv'
  rw [h3] at h4
  cases h4
  exact h1.symm.trans h2

/-- Ordinary notation has one meaning: no hypothesis on brackets, only that no sign stands before a power (there Python's rule and the parser's differ). -/
theorem C32_tight_unambiguous (ts : List Tok) (e e' : AExpr) (h : Tight funcs .sum ts e) (h' : Tight funcs .sum ts e') (ρ μ : ℕ → ℝ) :
    e.eval ρ μ = e'.eval ρ μ := (tight_sim h h' ρ μ).1

/-- A text in ordinary notation, if accepted, is read with its value, its places of smoothness and its variables, each as often and in the order in which they are written. -/
theorem accepted_sim {ts : List Tok} {e v : AExpr} {s : String} (hs : Spells ts s) (hd : Denotes true funcs .sum ts e)
    (hm : ¬ MinusPower funcs ts) (h : parseText funcs s = .ok v) : Sim v e ∧ v.xs = e.xs ∧ v.us = e.us := by
  obtain ⟨txts, h1, h2⟩ := hs
  have hg := good_of_denotes hd
  have hne : NoEmptyBrackets s := noEmpty_of_layout ts txts _ h1 h2 (nb_of_chain hg.chain)
  obtain ⟨ts', e', ⟨txts', k1, k2⟩, k3, k4, k5, k6⟩ := accepted_reading s v hne h
  have sp := sp_of_layout ts txts _ h1 h2 hg.chain
  have hd' : ts' = ts := by
    have hc' : ts'.IsChain Adj := (good_of_tight k3).chain
    exact sp_unique rfl (sp_of_layout ts' txts' _ k1 k2 hc') sp
  subst hd'
  obtain ⟨d1, d2⟩ := hd.vars
  refine ⟨?_, by rw [k5, d1], by rw [k6, d2]⟩
  rcases tight_of_denotes hd with h5 | h5
  · exact k4.trans (tight_sim k3 h5)
  · exact absurd h5 hm

theorem accepted_denotes {ts : List Tok} {e v : AExpr} {s : String} (hs : Spells ts s) (hd : Denotes true funcs .sum ts e)
    (hm : ¬ MinusPower funcs ts) (h : parseText funcs s = .ok v) : (∀ ρ μ, v.eval ρ μ = e.eval ρ μ) ∧ v.xs = e.xs ∧ v.us = e.us :=
  ⟨fun ρ μ => ((accepted_sim hs hd hm h).1 ρ μ).1, (accepted_sim hs hd hm h).2⟩

/-- **C32, silence.** Take any text in ordinary notation, all of it, in which no sign stands directly before a power. If the parser accepts the text at
all, the expression it returns has the ordinary value: outside that one construct it can refuse a text but not misread it. -/
theorem C32_text_never_misread (ts : List Tok) (e v : AExpr) (s : String) (hs : Spells ts s) (hd : Denotes true funcs .sum ts e)
    (hm : ¬ MinusPower funcs ts) (h : parseText funcs s = .ok v) (ρ μ : ℕ → ℝ) : v.eval ρ μ = e.eval ρ μ := (accepted_denotes hs hd hm h).1 ρ μ

/-! ### The hypotheses are met, and empty brackets are the exception -/

/-- The text `x0 -1.5*x12` is read in ordinary notation: all hypotheses of `C32_text_never_misread` hold of it. -/
example : ∃ ts e v, Spells ts "x0 -1.5*x12" ∧ Denotes true z3Funcs .sum ts e ∧ ¬ MinusPower z3Funcs ts ∧ parseText z3Funcs "x0 -1.5*x12" = .ok v := by
  have hd : ∀ b, Denotes b z3Funcs .sum [.x 0, .minus, .num (3 / 2), .star, .x 12] (.sub (.x 0) (.mul (.num (3 / 2)) (.x 12))) := fun b =>
    Denotes.sub (a := [.x 0]) (.sum (.term (.factor (.signed (.x 0)))))
      (.mul (a := [.num (3 / 2)]) (.term (.factor (.signed (.num _)))) (.factor (.signed (.x 12))))
  obtain ⟨v, hv, -⟩ := C32_text_ordinary_meaning_partial _ _ _ (hd false) example_spells (by simp [DivByZero])
  refine ⟨_, _, v, example_spells, hd true, ?_, hv⟩
  rintro ⟨p, a, e, r, h, -⟩
  have : Tok.dstar ∈ [Tok.x 0, .minus, .num (3 / 2), .star, .x 12] := by rw [h]; simp
  simp at this

/-- A sign before a power somewhere inside an expression is what `MinusPower` finds; a subtraction before a power is not. -/
example : MinusPower z3Funcs [.x 0, .star, .minus, .x 1, .dstar, .num 2] :=
  ⟨[.x 0, .star], [.x 1], .x 1, [.num 2], rfl, by simp [opens], .x 1⟩

example : ¬ MinusPower z3Funcs [.x 0, .minus, .x 1, .dstar, .num 2] := by
  rintro ⟨p, a, e, r, h, hp, ha⟩
  rcases p with _ | ⟨t, p⟩
  · simp at h
  · rcases p with _ | ⟨t', p⟩
    · simp at h
      exact hp t rfl |> fun h' => by rw [← h.1] at h'; exact h'
    · have h1 : Tok.minus ∈ [Tok.x 1, .dstar, .num 2] := by
        simp only [List.cons_append, List.append_assoc, List.cons.injEq] at h
        rw [h.2.2]; simp
      simp at h1

deriving instance DecidableEq for Except

/-- Empty brackets are accepted, and are read in ways no notation has: `(x0 ())` is `x0`, and `(x0 (() + x1))` is `x0 + x1`, while the texts without the
empty brackets, `(x0)` and `(x0 (x1))`, mean something else or nothing. -/
theorem C32_empty_brackets_accepted :
    parseText z3Funcs "(x0 ())" = .ok (.x 0) ∧ parseText z3Funcs "(x0 (() + x1))" = .ok (.add (.x 0) (.x 1)) ∧
      (∃ e, parseText z3Funcs "(x0 (x1))" = .error e) := by
  have no : ∀ r : Except Err AExpr, (match r with | .ok _ => true | .error _ => false) = false → ∃ e, r = .error e := by
    intro r h
    cases r with
    | ok => cases h
    | error e => exact ⟨e, rfl⟩
  refine ⟨by decide +kernel, by decide +kernel, no _ (by decide +kernel)⟩

end Fossil

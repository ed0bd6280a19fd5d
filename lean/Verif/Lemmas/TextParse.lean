/- The scannerless parser on a text does what the token parser does on the tokens of the text. -/
import Verif.Lemmas.Text
import Verif.Lemmas.Parser
import Verif.Spec.ExprText

namespace Fossil
open Spec

/-- What may directly follow a token so that the scanner does not run on. -/
def Follows : Tok → List Char → Prop
  | .num _, s => EndsNum s
  | .x _, s | .u _, s => HeadIs (fun c => isNum c = false) s
  | .fn _, s => HeadIs (fun c => isIdent c = false) s
  | .star, s => HeadIs (fun c => c ≠ '*') s
  | _, _ => True

/-- `s` spells `ts` and the scanner finds the same borders. -/
inductive Sp : List Tok → List Char → Prop
  | nil {s} (h : Blank s) : Sp [] s
  | cons {w t txt ts s} (hw : Blank w) (ht : TokText t txt) (hf : Follows t s) (h : Sp ts s) : Sp (t :: ts) (w ++ txt ++ s)

/-- First characters of tokens. -/
theorem tok_head {t : Tok} {txt : List Char} (h : TokText t txt) : ∃ c r, txt = c :: r ∧ isWs c = false ∧
    (isNum c = true ↔ ∃ q, t = .num q) ∧ (c = 'x' ↔ ∃ i, t = .x i) ∧ (c = 'u' ↔ ∃ i, t = .u i) ∧ (c = '(' ↔ t = .lpar) ∧ (c = ')' ↔ t = .rpar) ∧
    (c = '+' ↔ t = .plus) ∧ (c = '-' ↔ t = .minus) ∧ (c = '/' ↔ t = .slash) ∧ (c = '*' ↔ t = .star ∨ t = .dstar) := by
  cases h with
  | num h =>
    obtain ⟨c, r, rfl, hc⟩ := numeral_head h
    have hne : ∀ d, isNum d = false → c ≠ d := fun d hd e => by rw [e, hd] at hc; cases hc
    refine ⟨c, r, rfl, isNum_not_ws hc, ?_⟩
    simp [hc, hne 'x' (by decide), hne 'u' (by decide), hne '(' (by decide), hne ')' (by decide), hne '+' (by decide), hne '-' (by decide),
      hne '/' (by decide), hne '*' (by decide)]
  | x h | u h | lpar | rpar | plus | minus | star | slash | dstar => refine ⟨_, _, rfl, by decide, ?_⟩; simp; try decide
  | fn f => cases f <;> (refine ⟨_, _, rfl, by decide, ?_⟩; simp; try decide)

theorem skip_tok {w txt s : List Char} {t : Tok} (hw : Blank w) (ht : TokText t txt) : skipWs (w ++ txt ++ s) = txt ++ s := by
  obtain ⟨c, r, rfl, hc, -⟩ := tok_head ht
  rw [List.append_assoc, skipWs_blank hw, skipWs_of_head]
  intro c' h
  simp at h
  subst h
  exact hc

theorem varC_aux {v : Char} {d s : List Char} (hd : Index d) (hs : HeadIs (fun c => isNum c = false) s) (w : List Char) (hw : Blank w)
    (hv : isWs v = false) : varC v (w ++ v :: d ++ s) = some (digitsValue d, s) := by
  unfold varC
  rw [List.append_assoc, skipWs_blank hw, skipWs_of_head (by intro c hc; simp at hc; subst hc; exact hv)]
  simp only [List.cons_append, if_true]
  obtain ⟨h1, h2⟩ := takeWhile_digits (digits_isNum hd.1) hs
  rw [h1, h2]
  obtain ⟨⟨hne, -⟩, hz⟩ := hd
  match d, hne, hz with
  | [c], _, _ => split <;> simp_all [natVal_eq]
  | c :: c' :: d, _, hz =>
    have : c ≠ '0' := by
      rcases hz with hz | hz
      · simp at hz
      · simpa using hz
    split <;> simp_all [natVal_eq]

section
variable {w txt s : List Char} {t : Tok} (hw : Blank w) (ht : TokText t txt) (hf : Follows t s)
include hw ht

theorem lit1_tok (a : Char) (o : Tok) (ho : ∀ c r, txt = c :: r → (c = a ↔ t = o)) (hlen : t = o → txt.length = 1) :
    litC [a] (w ++ txt ++ s) = if t = o then some s else none := by
  unfold litC
  rw [skip_tok hw ht]
  obtain ⟨c, r, rfl, -⟩ := tok_head ht
  have := ho c r rfl
  by_cases h : t = o
  · have h1 := hlen h
    simp at h1
    subst h1
    rw [if_pos h, this.2 h]
    simp [List.isPrefixOf?]
  · have : c ≠ a := fun e => h (this.1 e)
    rw [if_neg h]
    simp [List.isPrefixOf?, Ne.symm this]

theorem lit_lpar : litC ['('] (w ++ txt ++ s) = if t = .lpar then some s else none := by
  refine lit1_tok hw ht _ _ (fun c r h => ?_) ?_
  · obtain ⟨c', r', e, -, -, -, -, h1, -⟩ := tok_head ht
    rw [h] at e; cases e; exact h1
  · rintro rfl; cases ht; rfl

theorem lit_rpar : litC [')'] (w ++ txt ++ s) = if t = .rpar then some s else none := by
  refine lit1_tok hw ht _ _ (fun c r h => ?_) ?_
  · obtain ⟨c', r', e, -, -, -, -, -, h1, -⟩ := tok_head ht
    rw [h] at e; cases e; exact h1
  · rintro rfl; cases ht; rfl

theorem lit_plus : litC ['+'] (w ++ txt ++ s) = if t = .plus then some s else none := by
  refine lit1_tok hw ht _ _ (fun c r h => ?_) ?_
  · obtain ⟨c', r', e, -, -, -, -, -, -, h1, -⟩ := tok_head ht
    rw [h] at e; cases e; exact h1
  · rintro rfl; cases ht; rfl

theorem lit_minus : litC ['-'] (w ++ txt ++ s) = if t = .minus then some s else none := by
  refine lit1_tok hw ht _ _ (fun c r h => ?_) ?_
  · obtain ⟨c', r', e, -, -, -, -, -, -, -, h1, -⟩ := tok_head ht
    rw [h] at e; cases e; exact h1
  · rintro rfl; cases ht; rfl

theorem lit_slash : litC ['/'] (w ++ txt ++ s) = if t = .slash then some s else none := by
  refine lit1_tok hw ht _ _ (fun c r h => ?_) ?_
  · obtain ⟨c', r', e, -, -, -, -, -, -, -, -, h1, -⟩ := tok_head ht
    rw [h] at e; cases e; exact h1
  · rintro rfl; cases ht; rfl

include hf in
theorem lit_dstar : litC ['*', '*'] (w ++ txt ++ s) = if t = .dstar then some s else none := by
  unfold litC
  rw [skip_tok hw ht]
  by_cases h : t = .dstar
  · subst h; cases ht; simp [List.isPrefixOf?]
  · rw [if_neg h]
    obtain ⟨c, r, rfl, -, -, -, -, -, -, -, -, -, h1⟩ := tok_head ht
    by_cases hc : c = '*'
    · have := (h1.1 hc).resolve_right h
      subst this
      cases ht
      cases s with
      | nil => rfl
      | cons a s =>
        have : a ≠ '*' := hf a rfl
        simp [List.isPrefixOf?, Ne.symm this]
    · simp [List.isPrefixOf?, Ne.symm hc]

theorem lit_star : litC ['*'] (w ++ txt ++ s) = if t = .star then some s else if t = .dstar then some ('*' :: s) else none := by
  unfold litC
  rw [skip_tok hw ht]
  by_cases h : t = .star
  · subst h; cases ht; simp [List.isPrefixOf?]
  · by_cases h' : t = .dstar
    · subst h'; cases ht; simp [List.isPrefixOf?]
    · rw [if_neg h, if_neg h']
      obtain ⟨c, r, rfl, -, -, -, -, -, -, -, -, -, h1⟩ := tok_head ht
      have hc : c ≠ '*' := fun e => by rcases h1.1 e with e | e; exacts [h e, h' e]
      simp [List.isPrefixOf?, Ne.symm hc]

include hf in
theorem number_tok : (∀ q, t = .num q → numberC (w ++ txt ++ s) = some (q, s)) ∧ ((∀ q, t ≠ .num q) → numberC (w ++ txt ++ s) = none) := by
  refine ⟨?_, fun h => ?_⟩
  · rintro q rfl
    cases ht with
    | num h => exact numberC_match hw h hf
  · rw [List.append_assoc]
    refine numberC_none hw ?_
    obtain ⟨c, r, rfl, h0, h1, -⟩ := tok_head ht
    intro c' hc'
    simp at hc'
    subst hc'
    refine ⟨h0, Bool.eq_false_iff.2 fun hn => ?_⟩
    obtain ⟨q, hq⟩ := h1.1 hn
    exact h q hq

theorem varC_other {v : Char} (hv : ∀ c r, txt = c :: r → c ≠ v) : varC v (w ++ txt ++ s) = none := by
  unfold varC
  rw [skip_tok hw ht]
  obtain ⟨c, r, rfl, -⟩ := tok_head ht
  simp [hv c r rfl]

include hf in
theorem varx_tok : (∀ i, t = .x i → varC 'x' (w ++ txt ++ s) = some (i, s)) ∧ ((∀ i, t ≠ .x i) → varC 'x' (w ++ txt ++ s) = none) := by
  refine ⟨?_, fun h => ?_⟩
  · rintro i rfl
    cases ht with
    | x h => exact varC_aux h hf w hw (by decide)
  · refine varC_other hw ht fun c r e => ?_
    obtain ⟨c', r', e', -, -, h1, -⟩ := tok_head ht
    rw [e] at e'
    cases e'
    rintro hc
    obtain ⟨i, hi⟩ := h1.1 hc
    exact h i hi

include hf in
theorem varu_tok : (∀ i, t = .u i → varC 'u' (w ++ txt ++ s) = some (i, s)) ∧ ((∀ i, t ≠ .u i) → varC 'u' (w ++ txt ++ s) = none) := by
  refine ⟨?_, fun h => ?_⟩
  · rintro i rfl
    cases ht with
    | u h => exact varC_aux h hf w hw (by decide)
  · refine varC_other hw ht fun c r e => ?_
    obtain ⟨c', r', e', -, -, -, h1, -⟩ := tok_head ht
    rw [e] at e'
    cases e'
    rintro hc
    obtain ⟨i, hi⟩ := h1.1 hc
    exact h i hi

end

theorem fnText_name (f : FName) : (fnText f).toList = f.name := by cases f <;> rfl

theorem keyword_fn {w s : List Char} (f g : FName) (hw : Blank w) (hs : HeadIs (fun c => isIdent c = false) s) :
    keywordC g.name (w ++ f.name ++ s) = if g = f then some s else none := by
  unfold keywordC litC
  rw [List.append_assoc, skipWs_blank hw, skipWs_of_head (by intro c hc; cases f <;> (simp [FName.name] at hc; subst hc; decide))]
  by_cases h : g = f
  · subst h
    rw [if_pos rfl]
    have : g.name.isPrefixOf? (g.name ++ s) = some s := by simp [List.isPrefixOf?_eq_some_iff_append_eq]
    rw [this]
    cases s with
    | nil => rfl
    | cons c s => simp [show isIdent c = false from hs c rfl]
  · rw [if_neg h]
    have : g.name.isPrefixOf? (f.name ++ s) = none := by
      cases g <;> cases f <;> first | exact absurd rfl h | rfl
    rw [this]

theorem keyword_other {w txt s : List Char} {t : Tok} (hw : Blank w) (ht : TokText t txt) (g : FName) (h : ∀ f, t ≠ .fn f) :
    keywordC g.name (w ++ txt ++ s) = none := by
  unfold keywordC litC
  rw [skip_tok hw ht]
  have : g.name.isPrefixOf? (txt ++ s) = none := by
    cases ht with
    | fn f => exact absurd rfl (h f)
    | num hn =>
      obtain ⟨c, r, rfl, hc⟩ := numeral_head hn
      have hne : ∀ d, isNum d = false → (d == c) = false := fun d hd => by
        simp only [beq_eq_false_iff_ne, ne_eq]; rintro rfl; rw [hd] at hc; cases hc
      cases g <;> simp [FName.name, List.isPrefixOf?, hne 's' (by decide), hne 'c' (by decide), hne 'e' (by decide), hne 'l' (by decide), hne 't' (by decide)]
    | x h | u h | lpar | rpar | plus | minus | star | slash | dstar => cases g <;> rfl
  rw [this]

theorem fn_tok {w txt s : List Char} {t : Tok} (funcs : FName → Bool) (hw : Blank w) (ht : TokText t txt) (hf : Follows t s) :
    (∀ f, t = .fn f → fnC funcs (w ++ txt ++ s) = if funcs f then some (f, s) else none) ∧ ((∀ f, t ≠ .fn f) → fnC funcs (w ++ txt ++ s) = none) := by
  refine ⟨?_, fun h => ?_⟩
  · rintro f rfl
    have e : txt = f.name := by cases ht; exact fnText_name f
    subst e
    unfold fnC
    simp only [keyword_fn f _ hw hf, List.findSome?_cons, List.findSome?_nil]
    cases f <;> simp <;> split_ifs <;> rfl
  · unfold fnC
    simp only [keyword_other hw ht _ h, List.findSome?_cons, List.findSome?_nil]
    simp

/-! Blank rests. -/

theorem litC_blank {s : List Char} (h : Blank s) (a : Char) (r : List Char) : litC (a :: r) s = none := by
  unfold litC; rw [skipWs_nil_of_blank h]; rfl

theorem numberC_blank {s : List Char} (h : Blank s) : numberC s = none := by
  unfold numberC; rw [skipWs_nil_of_blank h]; rfl

theorem varC_blank {s : List Char} (h : Blank s) (v : Char) : varC v s = none := by
  unfold varC; rw [skipWs_nil_of_blank h]

theorem fnC_blank {s : List Char} (h : Blank s) (funcs : FName → Bool) : fnC funcs s = none := by
  unfold fnC
  have : ∀ f : FName, keywordC f.name s = none := by
    intro f
    unfold keywordC
    cases f <;> simp [FName.name, litC_blank h]
  simp [this]

/-! Texts that start with a star cannot be parsed. -/

theorem star_lit (r : List Char) (a : Char) (ha : a ≠ '*') (l : List Char) : litC (a :: l) ('*' :: r) = none := by
  unfold litC
  rw [skipWs_of_head (by intro c hc; simp at hc; subst hc; decide)]
  simp [List.isPrefixOf?, ha]

theorem pegC_star (funcs : FName → Bool) (n : ℕ) (sym : Sym) (r : List Char) : pegC funcs n sym ('*' :: r) = none := by
  have hsk : skipWs ('*' :: r) = '*' :: r := skipWs_of_head (by intro c hc; simp at hc; subst hc; decide)
  cases n with
  | zero => rfl
  | succ n =>
    have hn : numberC ('*' :: r) = none := by
      have := numberC_none (w := []) (s := '*' :: r) (by intro c hc; cases hc) (by intro c hc; simp at hc; subst hc; decide)
      simpa using this
    have hx : varC 'x' ('*' :: r) = none := by unfold varC; rw [hsk]; rfl
    have hu : varC 'u' ('*' :: r) = none := by unfold varC; rw [hsk]; rfl
    have hfn : fnC funcs ('*' :: r) = none := by
      unfold fnC
      have : ∀ f : FName, keywordC f.name ('*' :: r) = none := by
        intro f
        unfold keywordC
        cases f <;> simp [FName.name, star_lit]
      simp [this]
    have hnest : ∀ nested expr m, pnestedC nested expr m ('*' :: r) = none := by
      intro nested expr m; simp [pnestedC, star_lit]
    have h0 : patomC funcs (pegC funcs n .nested) (pegC funcs n (.lvl 6)) n ('*' :: r) = none := by
      simp [patomC, hn, hx, hu, hfn, hnest, star_lit]
    have h1 : punaryC (pegC funcs n (.lvl 1)) (patomC funcs (pegC funcs n .nested) (pegC funcs n (.lvl 6)) n) ('*' :: r) = none := by
      simp [punaryC, star_lit, h0]
    have hb : ∀ (first operand : PC) o po m, first ('*' :: r) = none → pbinC first operand o po m ('*' :: r) = none := by
      intro first operand o po m h; simp [pbinC, h]
    have h2 := hb _ (pegC funcs n (.lvl 2)) ['*', '*'] .pow n h1
    have h3 := hb _ (pegC funcs n (.lvl 2)) ['/'] .div n h2
    have h4 := hb _ (pegC funcs n (.lvl 3)) ['*'] .mul n h3
    have h5 := hb _ (pegC funcs n (.lvl 4)) ['-'] .sub n h4
    have h6 := hb _ (pegC funcs n (.lvl 5)) ['+'] .add n h5
    unfold pegC
    simp only
    split
    · exact hnest _ _ _
    · exact h0
    · exact h1
    · exact h2
    · exact h3
    · exact h4
    · exact h5
    · exact h6

/-- Same result on tokens and on characters. -/
def SimR (a : Option (PTree × List Tok)) (b : Option (PTree × List Char)) : Prop :=
  match a with
  | none => b = none
  | some (e, r) => ∃ cr, b = some (e, cr) ∧ Sp r cr

/-- The two parsers agree on all spelled inputs. -/
def SimP (p : P) (pc : PC) : Prop := ∀ ts s, Sp ts s → SimR (p ts) (pc s)

/-- The operator text matches exactly the operator token, except where the operand cannot follow. -/
def SimLit (o : Tok) (os : List Char) (pc : PC) : Prop :=
  (∀ s, Blank s → litC os s = none) ∧ ∀ w t txt s, Blank w → TokText t txt → Follows t s →
    if t = o then litC os (w ++ txt ++ s) = some s else litC os (w ++ txt ++ s) = none ∨ ∃ s', litC os (w ++ txt ++ s) = some s' ∧ pc s' = none

theorem pmany_sim {p : P} {pc : PC} {o : Tok} {os : List Char} {po : POp} (hp : SimP p pc) (ho : SimLit o os pc) :
    ∀ k ts s, Sp ts s → ∃ cr, pmanyC pc os po k s = ((pmany p o po k ts).1, cr) ∧ Sp (pmany p o po k ts).2 cr := by
  intro k
  induction k with
  | zero => intro ts s h; exact ⟨s, rfl, h⟩
  | succ k ih =>
    intro ts s h
    cases h with
    | nil h =>
      refine ⟨s, ?_, .nil h⟩
      simp [pmanyC, pmany, ho.1 s h]
    | @cons w t txt ts s hw ht hf h =>
      have hl := ho.2 w t txt s hw ht hf
      by_cases hto : t = o
      · rw [if_pos hto] at hl
        have hps := hp ts s h
        rw [pmany, if_pos hto, pmanyC, hl]
        simp only
        cases hpt : p ts with
        | none =>
          rw [hpt] at hps
          change pc s = none at hps
          rw [hps]
          exact ⟨_, rfl, .cons hw ht hf h⟩
        | some m =>
          obtain ⟨e, r⟩ := m
          rw [hpt] at hps
          obtain ⟨cr, h1, h2⟩ := hps
          obtain ⟨cr', h3, h4⟩ := ih r cr h2
          rw [h1]
          exact ⟨cr', by simp only [h3], h4⟩
      · rw [if_neg hto] at hl
        rw [pmany, if_neg hto, pmanyC]
        rcases hl with hl | ⟨s', hl, hn⟩
        · rw [hl]; exact ⟨_, rfl, .cons hw ht hf h⟩
        · rw [hl]; simp only [hn]; exact ⟨_, rfl, .cons hw ht hf h⟩

theorem pbin_sim {first operand : P} {firstC operandC : PC} {o : Tok} {os : List Char} {po : POp} {n : ℕ} (h1 : SimP first firstC)
    (h2 : SimP operand operandC) (ho : SimLit o os operandC) : SimP (pbin first operand o po n) (pbinC firstC operandC os po n) := by
  intro ts s h
  have := h1 ts s h
  unfold pbin pbinC
  cases hf : first ts with
  | none => rw [hf] at this; change firstC s = none at this; rw [this]; rfl
  | some m =>
    obtain ⟨e, r⟩ := m
    rw [hf] at this
    obtain ⟨cr, h3, h4⟩ := this
    obtain ⟨cr', h5, h6⟩ := pmany_sim (po := po) h2 ho n r cr h4
    rw [h3]
    simp only
    rw [h5]
    generalize pmany operand o po n r = m at h5 h6
    obtain ⟨l, r'⟩ := m
    cases l with
    | nil => exact ⟨cr, rfl, h4⟩
    | cons a l => exact ⟨cr', rfl, h6⟩

theorem pitems_sim {nested expr : P} {nestedC exprC : PC} (h1 : SimP nested nestedC) (h2 : SimP expr exprC) :
    ∀ k ts s, Sp ts s → ∃ cr, pitemsC nestedC exprC k s = ((pitems nested expr k ts).1, cr) ∧ Sp (pitems nested expr k ts).2 cr := by
  intro k
  induction k with
  | zero => intro ts s h; exact ⟨s, rfl, h⟩
  | succ k ih =>
    intro ts s h
    have a1 := h1 ts s h
    have a2 := h2 ts s h
    rw [pitems, pitemsC]
    cases hn : nested ts with
    | some m =>
      obtain ⟨e, r⟩ := m
      rw [hn] at a1
      obtain ⟨cr, h3, h4⟩ := a1
      obtain ⟨cr', h5, h6⟩ := ih r cr h4
      rw [h3]
      exact ⟨cr', by simp only [h5], h6⟩
    | none =>
      rw [hn] at a1
      change nestedC s = none at a1
      rw [a1]
      cases he : expr ts with
      | some m =>
        obtain ⟨e, r⟩ := m
        rw [he] at a2
        obtain ⟨cr, h3, h4⟩ := a2
        obtain ⟨cr', h5, h6⟩ := ih r cr h4
        rw [h3]
        exact ⟨cr', by simp only [h5], h6⟩
      | none =>
        rw [he] at a2
        change exprC s = none at a2
        rw [a2]
        exact ⟨s, rfl, h⟩

/-- The closing bracket after some items. -/
theorem rpar_sim {ts : List Tok} {s : List Char} (h : Sp ts s) :
    (∃ r cr, ts = .rpar :: r ∧ litC [')'] s = some cr ∧ Sp r cr) ∨ ((∀ r, ts ≠ .rpar :: r) ∧ litC [')'] s = none) := by
  cases h with
  | nil h => exact Or.inr ⟨fun r => by simp, litC_blank h _ _⟩
  | @cons w t txt ts s hw ht hf h =>
    have := lit_rpar (s := s) hw ht
    by_cases e : t = .rpar
    · rw [if_pos e] at this; subst e; exact Or.inl ⟨ts, s, rfl, this, h⟩
    · rw [if_neg e] at this; exact Or.inr ⟨fun r => by simp [e], this⟩

theorem pnested_sim {nested expr : P} {nestedC exprC : PC} {n : ℕ} (h1 : SimP nested nestedC) (h2 : SimP expr exprC) :
    SimP (pnested nested expr n) (pnestedC nestedC exprC n) := by
  intro ts s h
  unfold pnested pnestedC
  cases h with
  | nil h => rw [litC_blank h]; rfl
  | @cons w t txt ts s hw ht hf h =>
    rw [lit_lpar hw ht]
    by_cases e : t = .lpar
    · subst e
      simp only [if_true]
      obtain ⟨cr, h3, h4⟩ := pitems_sim h1 h2 n ts s h
      rw [h3]
      generalize pitems nested expr n ts = m at h3 h4
      obtain ⟨l, r⟩ := m
      simp only at h4 ⊢
      rcases rpar_sim h4 with ⟨r', cr', rfl, h5, h6⟩ | ⟨hr, h5⟩
      · rw [h5]; exact ⟨cr', rfl, h6⟩
      · rw [h5]
        cases r with
        | nil => rfl
        | cons t r => cases t <;> first | exact absurd rfl (hr r) | rfl
    · rw [if_neg e]
      cases t <;> first | exact absurd rfl e | rfl

theorem patom_sim {funcs : FName → Bool} {nested expr : P} {nestedC exprC : PC} {n : ℕ} (h1 : SimP nested nestedC) (h2 : SimP expr exprC) :
    SimP (patom funcs nested expr n) (patomC funcs nestedC exprC n) := by
  intro ts s h
  have hn := pnested_sim (n := n) h1 h2 ts s h
  unfold patom patomC
  cases h with
  | nil h =>
    change pnestedC nestedC exprC n s = none at hn
    rw [numberC_blank h, varC_blank h, varC_blank h, fnC_blank h, hn, litC_blank h]
    rfl
  | @cons w t txt ts s hw ht hf h =>
    have a1 := number_tok hw ht hf
    have a2 := varx_tok hw ht hf
    have a3 := varu_tok hw ht hf
    have a4 := fn_tok funcs hw ht hf
    have a5 := lit_lpar (s := s) hw ht
    cases t with
    | num q => rw [a1.1 q rfl]; exact ⟨s, rfl, h⟩
    | x i => rw [a1.2 (by simp), a2.1 i rfl]; exact ⟨s, rfl, h⟩
    | u i => rw [a1.2 (by simp), a2.2 (by simp), a3.1 i rfl]; exact ⟨s, rfl, h⟩
    | fn f =>
      rw [a1.2 (by simp), a2.2 (by simp), a3.2 (by simp), a4.1 f rfl, a5, if_neg (show ¬ (Tok.fn f = Tok.lpar) by simp)]
      change pnestedC nestedC exprC n _ = none at hn
      rw [hn]
      simp only
      by_cases hff : funcs f = true
      · rw [if_pos hff, if_pos hff]
        have := h1 ts s h
        simp only
        cases hnt : nested ts with
        | none => rw [hnt] at this; change nestedC s = none at this; rw [this]; rfl
        | some m =>
          obtain ⟨e, r⟩ := m
          rw [hnt] at this
          obtain ⟨cr, h3, h4⟩ := this
          rw [h3]
          exact ⟨cr, rfl, h4⟩
      · rw [if_neg hff, if_neg hff]; rfl
    | lpar =>
      rw [a1.2 (by simp), a2.2 (by simp), a3.2 (by simp), a4.2 (by simp), a5, if_pos rfl]
      simp only
      cases hnt : pnested nested expr n (.lpar :: ts) with
      | some m =>
        obtain ⟨e, r⟩ := m
        rw [hnt] at hn
        obtain ⟨cr, h3, h4⟩ := hn
        rw [h3]
        exact ⟨cr, rfl, h4⟩
      | none =>
        rw [hnt] at hn
        change pnestedC nestedC exprC n _ = none at hn
        rw [hn]
        simp only
        have := h2 ts s h
        cases het : expr ts with
        | none => rw [het] at this; change exprC s = none at this; rw [this]; rfl
        | some m =>
          obtain ⟨e, r⟩ := m
          rw [het] at this
          obtain ⟨cr, h3, h4⟩ := this
          rw [h3]
          rcases rpar_sim h4 with ⟨r', cr', rfl, h5, h6⟩ | ⟨hr, h5⟩
          · simp only [h5]; exact ⟨cr', rfl, h6⟩
          · simp only [h5]
            cases r with
            | nil => rfl
            | cons t r => cases t <;> first | exact absurd rfl (hr r) | rfl
    | rpar | plus | minus | star | slash | dstar =>
      change pnestedC nestedC exprC n _ = none at hn
      rw [a1.2 (by simp), a2.2 (by simp), a3.2 (by simp), a4.2 (by simp), a5, if_neg (by simp), hn]
      rfl

theorem punary_sim {self atom : P} {selfC atomC : PC} (h1 : SimP self selfC) (h2 : SimP atom atomC)
    (hm : ∀ ts, atom (.minus :: ts) = none) : SimP (punary self atom) (punaryC selfC atomC) := by
  intro ts s h
  have a2 := h2 ts s h
  unfold punary punaryC
  cases h with
  | nil h => rw [litC_blank h]; exact a2
  | @cons w t txt ts s hw ht hf h =>
    have a1 := lit_minus (s := s) hw ht
    by_cases e : t = .minus
    · subst e
      rw [if_pos rfl] at a1
      rw [hm] at a2
      change atomC _ = none at a2
      rw [a1]
      have := h1 ts s h
      simp only
      cases hst : self ts with
      | none => rw [hst] at this; change selfC s = none at this; rw [this]; exact a2
      | some m =>
        obtain ⟨e, r⟩ := m
        rw [hst] at this
        obtain ⟨cr, h3, h4⟩ := this
        rw [h3]
        exact ⟨cr, rfl, h4⟩
    · rw [if_neg e] at a1
      rw [a1]
      cases t <;> first | exact absurd rfl e | exact a2

theorem simLit_slash (pc : PC) : SimLit .slash ['/'] pc := by
  refine ⟨fun s h => litC_blank h _ _, fun w t txt s hw ht hf => ?_⟩
  rw [lit_slash hw ht]; split_ifs <;> simp

theorem simLit_minus (pc : PC) : SimLit .minus ['-'] pc := by
  refine ⟨fun s h => litC_blank h _ _, fun w t txt s hw ht hf => ?_⟩
  rw [lit_minus hw ht]; split_ifs <;> simp

theorem simLit_plus (pc : PC) : SimLit .plus ['+'] pc := by
  refine ⟨fun s h => litC_blank h _ _, fun w t txt s hw ht hf => ?_⟩
  rw [lit_plus hw ht]; split_ifs <;> simp

theorem simLit_dstar (pc : PC) : SimLit .dstar ['*', '*'] pc := by
  refine ⟨fun s h => litC_blank h _ _, fun w t txt s hw ht hf => ?_⟩
  rw [lit_dstar hw ht hf]; split_ifs <;> simp

theorem simLit_star {pc : PC} (h : ∀ r, pc ('*' :: r) = none) : SimLit .star ['*'] pc := by
  refine ⟨fun s h => litC_blank h _ _, fun w t txt s hw ht hf => ?_⟩
  rw [lit_star hw ht]
  split_ifs with h1 h2
  · rfl
  · exact Or.inr ⟨_, rfl, h s⟩
  · exact Or.inl rfl

/-- The grammar on characters simulates the grammar on tokens. -/
theorem peg_sim (funcs : FName → Bool) : ∀ n sym, SimP (pegParse funcs n sym) (pegC funcs n sym) := by
  intro n
  induction n with
  | zero => intro sym ts s _; rfl
  | succ n ih =>
    have s0 : SimP (patom funcs (pegParse funcs n .nested) (pegParse funcs n (.lvl 6)) n)
        (patomC funcs (pegC funcs n .nested) (pegC funcs n (.lvl 6)) n) := patom_sim (ih _) (ih _)
    have s1 := punary_sim (ih (.lvl 1)) s0 (fun ts => rfl)
    have s2 := pbin_sim (po := .pow) (n := n) s1 (ih (.lvl 2)) (simLit_dstar _)
    have s3 := pbin_sim (po := .div) (n := n) s2 (ih (.lvl 2)) (simLit_slash _)
    have s4 := pbin_sim (po := .mul) (n := n) s3 (ih (.lvl 3)) (simLit_star (fun r => pegC_star funcs n _ r))
    have s5 := pbin_sim (po := .sub) (n := n) s4 (ih (.lvl 4)) (simLit_minus _)
    have s6 := pbin_sim (po := .add) (n := n) s5 (ih (.lvl 5)) (simLit_plus _)
    intro sym
    match sym with
    | .nested => exact pnested_sim (ih _) (ih _)
    | .lvl 0 => exact s0
    | .lvl 1 => exact s1
    | .lvl 2 => exact s2
    | .lvl 3 => exact s3
    | .lvl 4 => exact s4
    | .lvl 5 => exact s5
    | .lvl (_ + 6) => exact s6

end Fossil

/- The grammar by the parser's levels and the notation in which a minus sign binds tighter than a power. -/
import Verif.ParsedModel
import Verif.Lemmas.Parser

namespace Fossil
open Spec

variable {funcs : FName → Bool}

/-- All token strings the levels of the grammar generate, with the expression the fold builds. -/
inductive ParA (funcs : FName → Bool) : ℕ → List Tok → AExpr → Prop
  | num (q) : ParA funcs 0 [.num q] (.num q)
  | x (i) : ParA funcs 0 [.x i] (.x i)
  | u (i) : ParA funcs 0 [.u i] (.u i)
  | brackets {a e} (h : ParA funcs 6 a e) : ParA funcs 0 (.lpar :: a ++ [.rpar]) e
  | call {f a e} (h : ParA funcs 6 a e) (hf : funcs f = true) : ParA funcs 0 (.fn f :: .lpar :: a ++ [.rpar]) (.app f e)
  | up {k a e} (hk : k < 6) (h : ParA funcs k a e) : ParA funcs (k + 1) a e
  | neg {a e} (h : ParA funcs 1 a e) : ParA funcs 1 (.minus :: a) (.neg e)
  | pow {a b e f} (h : ParA funcs 1 a e) (h' : ParA funcs 2 b f) : ParA funcs 2 (a ++ .dstar :: b) (.pow e f)
  | div {a b e f} (h : ParA funcs 3 a e) (h' : ParA funcs 2 b f) : ParA funcs 3 (a ++ .slash :: b) (.div e f)
  | mul {a b e f} (h : ParA funcs 4 a e) (h' : ParA funcs 3 b f) : ParA funcs 4 (a ++ .star :: b) (.mul e f)
  | sub {a b e f} (h : ParA funcs 5 a e) (h' : ParA funcs 4 b f) : ParA funcs 5 (a ++ .minus :: b) (.sub e f)
  | add {a b e f} (h : ParA funcs 6 a e) (h' : ParA funcs 5 b f) : ParA funcs 6 (a ++ .plus :: b) (.add e f)

theorem ParA.lift {k a e} (h : ParA funcs k a e) : ∀ j, k + j ≤ 6 → ParA funcs (k + j) a e
  | 0, _ => h
  | j + 1, hj => .up (show k + j < 6 by omega) (h.lift j (by omega))

theorem ParA.to6 {k a e} (h : ParA funcs k a e) (hk : k ≤ 6) : ParA funcs 6 a e := by
  have := h.lift (6 - k) (by omega)
  rwa [Nat.add_sub_cancel' hk] at this

/-- The state variables among the tokens, in order. -/
def xToks (ts : List Tok) : List ℕ := ts.filterMap (fun t => match t with | .x i => some i | _ => none)

/-- The input variables among the tokens, in order. -/
def uToks (ts : List Tok) : List ℕ := ts.filterMap (fun t => match t with | .u i => some i | _ => none)

theorem ParA.vars {k ts e} (h : ParA funcs k ts e) : e.xs = xToks ts ∧ e.us = uToks ts := by
  induction h with
  | num | x | u => simp [AExpr.xs, AExpr.us, xToks, uToks]
  | brackets _ ih | call _ _ ih | neg _ ih => simpa [AExpr.xs, AExpr.us, xToks, uToks] using ih
  | up _ _ ih => exact ih
  | pow _ _ ih ih' | div _ _ ih ih' | mul _ _ ih ih' | sub _ _ ih ih' | add _ _ ih ih' =>
    simp only [xToks, uToks] at ih ih'
    simp [AExpr.xs, AExpr.us, xToks, uToks, ih.1, ih.2, ih'.1, ih'.2]

theorem Spec.Denotes.vars {full c ts e} (h : Denotes full funcs c ts e) : e.xs = xToks ts ∧ e.us = uToks ts := by
  induction h with
  | num | x | u => simp [AExpr.xs, AExpr.us, xToks, uToks]
  | brackets _ _ ih | call _ _ _ ih | neg _ ih | negPower _ _ ih => simpa [AExpr.xs, AExpr.us, xToks, uToks] using ih
  | signed _ ih | factor _ ih | term _ ih | sum _ ih => exact ih
  | power _ _ ih ih' | div _ _ ih ih' | mul _ _ ih ih' | sub _ _ ih ih' | add _ _ ih ih' =>
    simp only [xToks, uToks] at ih ih'
    simp [AExpr.xs, AExpr.us, xToks, uToks, ih.1, ih.2, ih'.1, ih'.2]

/-- Same value everywhere, and smooth at the same places. -/
def Sim (e' e : AExpr) : Prop := ∀ ρ μ, e'.eval ρ μ = e.eval ρ μ ∧ (SmoothAt ρ μ e' ↔ SmoothAt ρ μ e)

theorem Sim.refl (e : AExpr) : Sim e e := fun _ _ => ⟨rfl, Iff.rfl⟩

theorem Sim.symm {a b : AExpr} (h : Sim a b) : Sim b a := fun ρ μ => ⟨(h ρ μ).1.symm, (h ρ μ).2.symm⟩

theorem Sim.trans {a b c : AExpr} (h : Sim a b) (h' : Sim b c) : Sim a c :=
  fun ρ μ => ⟨(h ρ μ).1.trans (h' ρ μ).1, (h ρ μ).2.trans (h' ρ μ).2⟩

theorem SameMeaning.sim {a b : AExpr} (h : SameMeaning a b) : Sim a b := fun ρ μ => ⟨h.1 ρ μ, h.2.2.2 ρ μ⟩

/-- Has that value in the notation with the tight minus. -/
def TightV (funcs : FName → Bool) (c : Cat) (ts : List Tok) (e : AExpr) : Prop :=
  ∃ e', Tight funcs c ts e' ∧ Sim e' e

/-- What a level means. -/
def LvlV (funcs : FName → Bool) : ℕ → List Tok → AExpr → Prop
  | 0, ts, e => TightV funcs .operand ts e
  | 1, ts, e => TightV funcs .signed ts e
  | 2, ts, e => TightV funcs .factor ts e
  | 3, ts, e => TightV funcs .term ts e ∧ ∀ a e0, Tight funcs .term a e0 → TightV funcs .term (a ++ .star :: ts) (.mul e0 e)
  | 4, ts, e => TightV funcs .term ts e
  | 5, ts, e => TightV funcs .sum ts e ∧ ∀ a e0, Tight funcs .sum a e0 → TightV funcs .sum (a ++ .plus :: ts) (.add e0 e)
  | _, ts, e => TightV funcs .sum ts e

theorem lvlV {k ts e} (h : ParA funcs k ts e) : LvlV funcs k ts e := by
  induction h with
  | num q => exact ⟨_, .num q, Sim.refl _⟩
  | x q => exact ⟨_, .x q, Sim.refl _⟩
  | u q => exact ⟨_, .u q, Sim.refl _⟩
  | brackets h ih => obtain ⟨e', h1, h2⟩ := ih; exact ⟨e', .brackets h1, h2⟩
  | call h hf ih => obtain ⟨e', h1, h2⟩ := ih; exact ⟨_, .call h1 hf, fun ρ μ => by simp [AExpr.eval, SmoothAt, (h2 ρ μ).1, (h2 ρ μ).2]⟩
  | @up k a e hk h ih =>
    match k, hk, ih with
    | 0, _, ih => obtain ⟨e', h1, h2⟩ := ih; exact ⟨e', .signed h1, h2⟩
    | 1, _, ih => obtain ⟨e', h1, h2⟩ := ih; exact ⟨e', .factor h1, h2⟩
    | 2, _, ih =>
      obtain ⟨e', h1, h2⟩ := ih
      exact ⟨⟨e', .term h1, h2⟩, fun a e0 ha => ⟨_, .mul ha h1, fun ρ μ => by simp [AExpr.eval, SmoothAt, (h2 ρ μ).1, (h2 ρ μ).2]⟩⟩
    | 3, _, ih => exact ih.1
    | 4, _, ih =>
      obtain ⟨e', h1, h2⟩ := ih
      exact ⟨⟨e', .sum h1, h2⟩, fun a e0 ha => ⟨_, .add ha h1, fun ρ μ => by simp [AExpr.eval, SmoothAt, (h2 ρ μ).1, (h2 ρ μ).2]⟩⟩
    | 5, _, ih => exact ih.1
  | neg h ih => obtain ⟨e', h1, h2⟩ := ih; exact ⟨_, .neg h1, fun ρ μ => by simp [AExpr.eval, SmoothAt, (h2 ρ μ).1, (h2 ρ μ).2]⟩
  | pow h h' ih ih' =>
    obtain ⟨e', h1, h2⟩ := ih
    obtain ⟨f', h3, h4⟩ := ih'
    exact ⟨_, .power h1 h3, fun ρ μ => by simp [AExpr.eval, SmoothAt, (h2 ρ μ).1, (h2 ρ μ).2, (h4 ρ μ).1, (h4 ρ μ).2]⟩
  | div h h' ih ih' =>
    obtain ⟨⟨e', h1, h2⟩, ih⟩ := ih
    obtain ⟨f', h3, h4⟩ := ih'
    refine ⟨⟨_, .div h1 h3, fun ρ μ => by simp [AExpr.eval, SmoothAt, (h2 ρ μ).1, (h2 ρ μ).2, (h4 ρ μ).1, (h4 ρ μ).2]⟩, fun a e0 ha => ?_⟩
    obtain ⟨g, hg, hg'⟩ := ih a e0 ha
    refine ⟨.div g f', by simpa using Tight.div hg h3, fun ρ μ => ?_⟩
    simp only [AExpr.eval, SmoothAt, (hg' ρ μ).1, (hg' ρ μ).2, (h4 ρ μ).1, (h4 ρ μ).2]; exact ⟨by ring, by tauto⟩
  | mul h h' ih ih' =>
    obtain ⟨e', h1, h2⟩ := ih
    obtain ⟨g, hg, hg'⟩ := ih'.2 _ _ h1
    exact ⟨g, hg, fun ρ μ => by simp [(hg' ρ μ).1, (hg' ρ μ).2, AExpr.eval, SmoothAt, (h2 ρ μ).1, (h2 ρ μ).2]⟩
  | sub h h' ih ih' =>
    obtain ⟨⟨e', h1, h2⟩, ih⟩ := ih
    obtain ⟨f', h3, h4⟩ := ih'
    refine ⟨⟨_, .sub h1 h3, fun ρ μ => by simp [AExpr.eval, SmoothAt, (h2 ρ μ).1, (h2 ρ μ).2, (h4 ρ μ).1, (h4 ρ μ).2]⟩, fun a e0 ha => ?_⟩
    obtain ⟨g, hg, hg'⟩ := ih a e0 ha
    refine ⟨.sub g f', by simpa using Tight.sub hg h3, fun ρ μ => ?_⟩
    simp only [AExpr.eval, SmoothAt, (hg' ρ μ).1, (hg' ρ μ).2, (h4 ρ μ).1, (h4 ρ μ).2]; exact ⟨by ring, by tauto⟩
  | add h h' ih ih' =>
    obtain ⟨e', h1, h2⟩ := ih
    obtain ⟨g, hg, hg'⟩ := ih'.2 _ _ h1
    exact ⟨g, hg, fun ρ μ => by simp [(hg' ρ μ).1, (hg' ρ μ).2, AExpr.eval, SmoothAt, (h2 ρ μ).1, (h2 ρ μ).2]⟩

theorem tight_operand_head {a e} (h : Tight funcs .operand a e) : a.head? ≠ some .minus := by
  cases h <;> simp

theorem tight_signed_cases {a e} (h : Tight funcs .signed a e) :
    Tight funcs .operand a e ∨ ∃ p b f, a = p ++ .minus :: b ∧ (∀ t, p.getLast? = some t → opens t) ∧ Tight funcs .operand b f := by
  generalize hc : Cat.signed = c at h
  induction h with
  | signed h => exact .inl h
  | neg h ih =>
    rcases ih rfl with h1 | ⟨p, b, f, rfl, h0, h1⟩
    · exact .inr ⟨[], _, _, rfl, by simp, h1⟩
    · refine .inr ⟨_ :: p, b, f, rfl, fun t ht => ?_, h1⟩
      cases p with
      | nil => simp at ht; subst ht; trivial
      | cons => exact h0 t (by simpa using ht)
  | _ => cases hc

theorem minusPower_left {a : List Tok} (h : MinusPower funcs a) (b : List Tok) : MinusPower funcs (a ++ b) := by
  obtain ⟨p, x, e, r, rfl, h⟩ := h
  exact ⟨p, x, e, r ++ b, by simp, h⟩

theorem minusPower_right {a : List Tok} (h : MinusPower funcs a) (b : List Tok) {o : Tok} (ho : opens o) : MinusPower funcs (b ++ o :: a) := by
  obtain ⟨p, x, e, r, rfl, h0, h⟩ := h
  refine ⟨b ++ o :: p, x, e, r, by simp, fun t ht => ?_, h⟩
  cases p with
  | nil => simp at ht; subst ht; exact ho
  | cons c p => exact h0 t (by rw [List.getLast?_append_of_ne_nil _ (by simp)] at ht; simpa using ht)

/-- Without a sign before a power, the notation with the tight minus is ordinary notation. -/
theorem denotes_of_tight {c ts e} (h : Tight funcs c ts e) : Denotes true funcs c ts e ∨ MinusPower funcs ts := by
  have bin : ∀ {a b : List Tok} (o : Tok) {X Y Z : Prop}, opens o → (X ∨ MinusPower funcs a) → (Y ∨ MinusPower funcs b) → (X → Y → Z) →
      Z ∨ MinusPower funcs (a ++ o :: b) := by
    intro a b o X Y Z ho h1 h2 h3
    rcases h1 with h1 | h1
    · rcases h2 with h2 | h2
      · exact .inl (h3 h1 h2)
      · exact .inr (minusPower_right h2 a ho)
    · exact .inr (minusPower_left h1 _)
  induction h with
  | num q => exact .inl (.num q)
  | x q => exact .inl (.x q)
  | u q => exact .inl (.u q)
  | brackets h ih => exact ih.imp (fun h => .brackets h (.inl rfl)) (fun h => minusPower_left (minusPower_right (o := .lpar) h [] trivial) [.rpar])
  | @call f _ _ h hf ih =>
    exact ih.imp (fun h => .call h hf (.inl rfl)) (fun h => minusPower_left (minusPower_right (o := .lpar) h [.fn f] trivial) [.rpar])
  | signed h ih => exact ih.imp .signed id
  | neg h ih => exact ih.imp .neg (fun h => minusPower_right (o := .minus) h [] trivial)
  | factor h ih => exact ih.imp .factor id
  | @power a b e f h h' ih ih' =>
    rcases tight_signed_cases h with h1 | ⟨p, c, g, rfl, h0, h1⟩
    · refine bin .dstar trivial ih ih' (fun h2 h3 => .power ?_ h3)
      cases h2 with
      | signed h => exact h
      | neg h => exact absurd rfl (tight_operand_head h1)
    · exact .inr ⟨p, c, g, b, by simp, h0, h1⟩
  | term h ih => exact ih.imp .term id
  | mul h h' ih ih' => exact bin .star trivial ih ih' .mul
  | div h h' ih ih' => exact bin .slash trivial ih ih' .div
  | sum h ih => exact ih.imp .sum id
  | add h h' ih ih' => exact bin .plus trivial ih ih' .add
  | sub h h' ih ih' => exact bin .minus trivial ih ih' .sub

/-- What follows a minus sign in ordinary notation: something signed, or an operand raised to a power after further signs. -/
theorem factor_cases {a e} (h : Tight funcs .factor a e) :
    Tight funcs .signed a e ∨ ∃ b f r, a = b ++ .dstar :: r ∧ Tight funcs .signed b f := by
  cases h with
  | factor h => exact .inl h
  | power h h' => exact .inr ⟨_, _, _, rfl, h⟩

/-- Without a sign before a power, ordinary notation is the notation with the tight minus. -/
theorem tight_of_denotes {c ts e} (h : Denotes true funcs c ts e) : Tight funcs c ts e ∨ MinusPower funcs ts := by
  have bin : ∀ {a b : List Tok} (o : Tok) {X Y Z : Prop}, opens o → (X ∨ MinusPower funcs a) → (Y ∨ MinusPower funcs b) → (X → Y → Z) →
      Z ∨ MinusPower funcs (a ++ o :: b) := by
    intro a b o X Y Z ho h1 h2 h3
    rcases h1 with h1 | h1
    · rcases h2 with h2 | h2
      · exact .inl (h3 h1 h2)
      · exact .inr (minusPower_right h2 a ho)
    · exact .inr (minusPower_left h1 _)
  induction h with
  | num q => exact .inl (.num q)
  | x q => exact .inl (.x q)
  | u q => exact .inl (.u q)
  | brackets h _ ih => exact ih.imp .brackets (fun h => minusPower_left (minusPower_right (o := .lpar) h [] trivial) [.rpar])
  | @call f _ _ h hf _ ih =>
    exact ih.imp (fun h => .call h hf) (fun h => minusPower_left (minusPower_right (o := .lpar) h [.fn f] trivial) [.rpar])
  | signed h ih => exact ih.imp .signed id
  | neg h ih => exact ih.imp .neg (fun h => minusPower_right (o := .minus) h [] trivial)
  | factor h ih => exact ih.imp .factor id
  | power h h' ih ih' => exact bin .dstar trivial ih ih' (fun h1 h2 => .power (.signed h1) h2)
  | negPower _ h ih =>
    rcases ih with h1 | h1
    · rcases factor_cases h1 with h2 | ⟨b, f, r, rfl, h2⟩
      · exact .inl (.factor (.neg h2))
      · right
        rcases tight_signed_cases h2 with h3 | ⟨p, c, g, rfl, h0, h3⟩
        · exact ⟨[], b, f, r, by simp, by simp, h3⟩
        · refine ⟨.minus :: p, c, g, r, by simp, fun t ht => ?_, h3⟩
          cases p with
          | nil => simp at ht; subst ht; trivial
          | cons => exact h0 t (by simpa using ht)
    · exact .inr (minusPower_right (o := .minus) h1 [] trivial)
  | term h ih => exact ih.imp .term id
  | mul h h' ih ih' => exact bin .star trivial ih ih' .mul
  | div h h' ih ih' => exact bin .slash trivial ih ih' .div
  | sum h ih => exact ih.imp .sum id
  | add h h' ih ih' => exact bin .plus trivial ih ih' .add
  | sub h h' ih ih' => exact bin .minus trivial ih ih' .sub

/-! ### The notation is unambiguous: with `0 +` after every bracket the parser reads it -/

/-- Write `0 +` after every opening bracket. -/
def pad (ts : List Tok) : List Tok := ts.flatMap fun t => if t = .lpar then [.lpar, .num 0, .plus] else [t]

theorem Par.zero {a e} (h : Par funcs 6 a e) : ∃ e', Par funcs 6 (.num 0 :: .plus :: a) e' ∧ Sim e' e := by
  have z : Par funcs 6 [.num 0] (.num 0) :=
    .up (by omega) (.up (by omega) (.up (by omega) (.up (by omega) (.up (by omega) (.up (by omega) (.num 0))))))
  have : ∀ k a e, Par funcs k a e → k = 6 → ∃ e', Par funcs 6 (.num 0 :: .plus :: a) e' ∧ Sim e' e := by
    intro k a e h
    induction h with
    | @up k a e hk h _ =>
      intro e6
      have : k = 5 := by omega
      subst this
      exact ⟨_, Par.add z h, fun ρ μ => by simp [AExpr.eval, SmoothAt]⟩
    | add h h' ih _ =>
      intro _
      obtain ⟨e', h1, h2⟩ := ih rfl
      exact ⟨_, Par.add h1 h', fun ρ μ => by simp [AExpr.eval, SmoothAt, (h2 ρ μ).1, (h2 ρ μ).2]⟩
    | _ => intro h; omega
  exact this 6 a e h rfl

theorem par_pad {c ts e} (h : Tight funcs c ts e) : ∃ e', Par funcs (catLvl c) (pad ts) e' ∧ Sim e' e := by
  have pa : ∀ a b : List Tok, pad (a ++ b) = pad a ++ pad b := fun a b => by simp [pad]
  have pc : ∀ (t : Tok) (b : List Tok), t ≠ .lpar → pad (t :: b) = t :: pad b := fun a b h => by simp [pad, h]
  have pl : ∀ (b : List Tok), pad (.lpar :: b) = .lpar :: .num 0 :: .plus :: pad b := fun b => by simp [pad]
  have pr : pad [.rpar] = [.rpar] := by simp [pad]
  induction h with
  | num q => exact ⟨_, .num q, Sim.refl _⟩
  | x q => exact ⟨_, .x q, Sim.refl _⟩
  | u q => exact ⟨_, .u q, Sim.refl _⟩
  | brackets h ih =>
    obtain ⟨e', h1, h2⟩ := ih
    obtain ⟨e'', h3, h4⟩ := h1.zero
    refine ⟨e'', ?_, h4.trans h2⟩
    rw [pa, pl, pr]
    exact .brackets h3 trivial
  | @call f _ _ h hf ih =>
    obtain ⟨e', h1, h2⟩ := ih
    obtain ⟨e'', h3, h4⟩ := h1.zero
    refine ⟨.app f e'', ?_, fun ρ μ => by simp [AExpr.eval, SmoothAt, (h4.trans h2 ρ μ).1, (h4.trans h2 ρ μ).2]⟩
    rw [pa, pc _ _ (by simp), pl, pr]
    exact .call h3 hf (by simp)
  | signed h ih => obtain ⟨e', h1, h2⟩ := ih; exact ⟨e', .up (by decide) h1, h2⟩
  | neg h ih => obtain ⟨e', h1, h2⟩ := ih; rw [pc _ _ (by simp)]; exact ⟨_, .neg h1, fun ρ μ => by simp [AExpr.eval, SmoothAt, (h2 ρ μ).1, (h2 ρ μ).2]⟩
  | factor h ih => obtain ⟨e', h1, h2⟩ := ih; exact ⟨e', .up (by decide) h1, h2⟩
  | power h h' ih ih' =>
    obtain ⟨e', h1, h2⟩ := ih
    obtain ⟨f', h3, h4⟩ := ih'
    rw [pa, pc _ _ (by simp)]
    exact ⟨_, .pow h1 h3, fun ρ μ => by simp [AExpr.eval, SmoothAt, (h2 ρ μ).1, (h2 ρ μ).2, (h4 ρ μ).1, (h4 ρ μ).2]⟩
  | term h ih => obtain ⟨e', h1, h2⟩ := ih; exact ⟨e', .up (by decide) (.up (by decide) h1), h2⟩
  | mul h h' ih ih' =>
    obtain ⟨e', h1, h2⟩ := ih
    obtain ⟨f', h3, h4⟩ := ih'
    rw [pa, pc _ _ (by simp)]
    exact ⟨_, .mul h1 (.up (by decide) h3), fun ρ μ => by simp [AExpr.eval, SmoothAt, (h2 ρ μ).1, (h2 ρ μ).2, (h4 ρ μ).1, (h4 ρ μ).2]⟩
  | div h h' ih ih' =>
    obtain ⟨e', h1, h2⟩ := ih
    obtain ⟨f', h3, h4⟩ := ih'
    obtain ⟨g, hg, hg'⟩ := h1.divR h3
    rw [pa, pc _ _ (by simp)]
    exact ⟨g, hg, hg'.sim.trans fun ρ μ => by simp [AExpr.eval, SmoothAt, (h2 ρ μ).1, (h2 ρ μ).2, (h4 ρ μ).1, (h4 ρ μ).2]⟩
  | sum h ih => obtain ⟨e', h1, h2⟩ := ih; exact ⟨e', .up (by decide) (.up (by decide) h1), h2⟩
  | add h h' ih ih' =>
    obtain ⟨e', h1, h2⟩ := ih
    obtain ⟨f', h3, h4⟩ := ih'
    rw [pa, pc _ _ (by simp)]
    exact ⟨_, .add h1 (.up (by decide) h3), fun ρ μ => by simp [AExpr.eval, SmoothAt, (h2 ρ μ).1, (h2 ρ μ).2, (h4 ρ μ).1, (h4 ρ μ).2]⟩
  | sub h h' ih ih' =>
    obtain ⟨e', h1, h2⟩ := ih
    obtain ⟨f', h3, h4⟩ := ih'
    obtain ⟨g, hg, hg'⟩ := h1.subR h3
    rw [pa, pc _ _ (by simp)]
    exact ⟨g, hg, hg'.sim.trans fun ρ μ => by simp [AExpr.eval, SmoothAt, (h2 ρ μ).1, (h2 ρ μ).2, (h4 ρ μ).1, (h4 ρ μ).2]⟩

end Fossil

/- Facts about the expression parser used by C32. -/
import Verif.Spec.Arith
import Mathlib.Tactic

namespace Fossil

open Spec

/-- The language accepted correctly, arranged by the parser's own levels. -/
inductive Par (funcs : FName → Bool) : ℕ → List Tok → AExpr → Prop
  | num (q) : Par funcs 0 [.num q] (.num q)
  | x (i) : Par funcs 0 [.x i] (.x i)
  | u (i) : Par funcs 0 [.u i] (.u i)
  | brackets {a e} (h : Par funcs 6 a e) (hb : noLeadingGroupMinus a) : Par funcs 0 (.lpar :: a ++ [.rpar]) e
  | call {f a e} (h : Par funcs 6 a e) (hf : funcs f = true) (hb : a.head? ≠ some .lpar) :
      Par funcs 0 (.fn f :: .lpar :: a ++ [.rpar]) (.app f e)
  | up {k a e} (hk : k < 6) (h : Par funcs k a e) : Par funcs (k + 1) a e
  | neg {a e} (h : Par funcs 1 a e) : Par funcs 1 (.minus :: a) (.neg e)
  | pow {a b e f} (h : Par funcs 1 a e) (h' : Par funcs 2 b f) : Par funcs 2 (a ++ .dstar :: b) (.pow e f)
  | div {a b e f} (h : Par funcs 3 a e) (h' : Par funcs 2 b f) : Par funcs 3 (a ++ .slash :: b) (.div e f)
  | mul {a b e f} (h : Par funcs 4 a e) (h' : Par funcs 3 b f) : Par funcs 4 (a ++ .star :: b) (.mul e f)
  | sub {a b e f} (h : Par funcs 5 a e) (h' : Par funcs 4 b f) : Par funcs 5 (a ++ .minus :: b) (.sub e f)
  | add {a b e f} (h : Par funcs 6 a e) (h' : Par funcs 5 b f) : Par funcs 6 (a ++ .plus :: b) (.add e f)

variable {funcs : FName → Bool}

/-- Parser level of a category. -/
def catLvl : Cat → ℕ
  | .operand => 0
  | .signed => 1
  | .factor => 2
  | .term => 4
  | .sum => 6

/-- Two expressions with the same value, the same variables or none, and no new division by zero in the first. -/
def SameMeaning (e' e : AExpr) : Prop :=
  (∀ ρ μ, e'.eval ρ μ = e.eval ρ μ) ∧ (Constant e' ↔ Constant e) ∧ (DivByZero e' → DivByZero e) ∧ ∀ ρ μ, SmoothAt ρ μ e' ↔ SmoothAt ρ μ e

theorem SameMeaning.refl (e : AExpr) : SameMeaning e e := ⟨fun _ _ => rfl, Iff.rfl, id, fun _ _ => Iff.rfl⟩

theorem SameMeaning.trans {a b c : AExpr} (h : SameMeaning a b) (h' : SameMeaning b c) : SameMeaning a c :=
  ⟨fun ρ μ => (h.1 ρ μ).trans (h'.1 ρ μ), h.2.1.trans h'.2.1, fun k => h'.2.2.1 (h.2.2.1 k), fun ρ μ => (h.2.2.2 ρ μ).trans (h'.2.2.2 ρ μ)⟩

theorem SameMeaning.add {a a' b b' : AExpr} (h : SameMeaning a' a) (h' : SameMeaning b' b) : SameMeaning (.add a' b') (.add a b) :=
  ⟨fun ρ μ => by simp [AExpr.eval, h.1, h'.1], by simp [Constant, h.2.1, h'.2.1], Or.imp h.2.2.1 h'.2.2.1, fun ρ μ => by simp only [SmoothAt, h.2.2.2, h'.2.2.2]⟩

theorem SameMeaning.sub {a a' b b' : AExpr} (h : SameMeaning a' a) (h' : SameMeaning b' b) : SameMeaning (.sub a' b') (.sub a b) :=
  ⟨fun ρ μ => by simp [AExpr.eval, h.1, h'.1], by simp [Constant, h.2.1, h'.2.1], Or.imp h.2.2.1 h'.2.2.1, fun ρ μ => by simp only [SmoothAt, h.2.2.2, h'.2.2.2]⟩

theorem SameMeaning.mul {a a' b b' : AExpr} (h : SameMeaning a' a) (h' : SameMeaning b' b) : SameMeaning (.mul a' b') (.mul a b) :=
  ⟨fun ρ μ => by simp [AExpr.eval, h.1, h'.1], by simp [Constant, h.2.1, h'.2.1], Or.imp h.2.2.1 h'.2.2.1, fun ρ μ => by simp only [SmoothAt, h.2.2.2, h'.2.2.2]⟩

theorem SameMeaning.div {a a' b b' : AExpr} (h : SameMeaning a' a) (h' : SameMeaning b' b) : SameMeaning (.div a' b') (.div a b) :=
  ⟨fun ρ μ => by simp [AExpr.eval, h.1, h'.1], by simp [Constant, h.2.1, h'.2.1],
    Or.imp h.2.2.1 (Or.imp h'.2.2.1 fun k => ⟨h'.2.1.1 k.1, by rw [← h'.1]; exact k.2⟩),
    fun ρ μ => by simp only [SmoothAt, h.2.2.2, h'.2.2.2, h'.1]⟩

theorem SameMeaning.pow {a a' b b' : AExpr} (h : SameMeaning a' a) (h' : SameMeaning b' b) : SameMeaning (.pow a' b') (.pow a b) :=
  ⟨fun ρ μ => by simp [AExpr.eval, h.1, h'.1], by simp [Constant, h.2.1, h'.2.1],
    Or.imp h.2.2.1 (Or.imp h'.2.2.1 fun k => ⟨h.2.1.1 k.1, h'.2.1.1 k.2.1, by rw [← h.1]; exact k.2.2.1, by rw [← h'.1]; exact k.2.2.2⟩),
    fun ρ μ => by simp only [SmoothAt, h.2.2.2, h'.2.2.2, h.1, h'.1]⟩

theorem SameMeaning.neg {a a' : AExpr} (h : SameMeaning a' a) : SameMeaning (.neg a') (.neg a) :=
  ⟨fun ρ μ => by simp [AExpr.eval, h.1], h.2.1, h.2.2.1, fun ρ μ => by simp only [SmoothAt, h.2.2.2, h.1]⟩

theorem SameMeaning.app {a a' : AExpr} (f : FName) (h : SameMeaning a' a) : SameMeaning (.app f a') (.app f a) :=
  ⟨fun ρ μ => by simp [AExpr.eval, h.1], h.2.1, h.2.2.1, fun ρ μ => by simp only [SmoothAt, h.2.2.2, h.1]⟩

theorem Par.divR {a b e f} (h : Par funcs 4 a e) (h' : Par funcs 2 b f) :
    ∃ g, Par funcs 4 (a ++ .slash :: b) g ∧ SameMeaning g (.div e f) := by
  cases h with
  | up hk h => exact ⟨_, .up (by omega) (.div h h'), .refl _⟩
  | @mul a1 a2 e1 e2 h1 h2 =>
    refine ⟨.mul e1 (.div e2 f), ?_, fun ρ μ => by simp only [AExpr.eval]; ring, by simp only [Constant]; tauto, by simp only [DivByZero]; tauto, fun ρ μ => by simp only [SmoothAt]; tauto⟩
    have := Par.mul h1 (Par.div h2 h')
    simpa using this

theorem Par.subR {a b e f} (h : Par funcs 6 a e) (h' : Par funcs 4 b f) :
    ∃ g, Par funcs 6 (a ++ .minus :: b) g ∧ SameMeaning g (.sub e f) := by
  cases h with
  | up hk h => exact ⟨_, .up (by omega) (.sub h h'), .refl _⟩
  | @add a1 a2 e1 e2 h1 h2 =>
    refine ⟨.add e1 (.sub e2 f), ?_, fun ρ μ => by simp only [AExpr.eval]; ring, by simp only [Constant]; tauto, by simp only [DivByZero]; tauto, fun ρ μ => by simp only [SmoothAt]; tauto⟩
    have := Par.add h1 (Par.sub h2 h')
    simpa using this

theorem par_of_denotes {c ts e} (h : Denotes false funcs c ts e) :
    ∃ e', Par funcs (catLvl c) ts e' ∧ SameMeaning e' e := by
  induction h with
  | num q => exact ⟨_, .num q, .refl _⟩
  | x q => exact ⟨_, .x q, .refl _⟩
  | u q => exact ⟨_, .u q, .refl _⟩
  | brackets h hb ih =>
    obtain ⟨e', h1, h2⟩ := ih
    exact ⟨e', .brackets h1 (by simpa using hb), h2⟩
  | call h hf hb ih =>
    obtain ⟨e', h1, h2⟩ := ih
    exact ⟨_, .call h1 hf (by simpa using hb), h2.app _⟩
  | signed h ih => obtain ⟨e', h1, h2⟩ := ih; exact ⟨e', .up (by decide) h1, h2⟩
  | neg h ih => obtain ⟨e', h1, h2⟩ := ih; exact ⟨_, .neg h1, h2.neg⟩
  | factor h ih => obtain ⟨e', h1, h2⟩ := ih; exact ⟨e', .up (by decide) h1, h2⟩
  | power h h' ih ih' =>
    obtain ⟨e', h1, h2⟩ := ih
    obtain ⟨f', h3, h4⟩ := ih'
    exact ⟨_, .pow (.up (by decide) h1) h3, h2.pow h4⟩
  | negPower hf => cases hf
  | term h ih => obtain ⟨e', h1, h2⟩ := ih; exact ⟨e', .up (by decide) (.up (by decide) h1), h2⟩
  | mul h h' ih ih' =>
    obtain ⟨e', h1, h2⟩ := ih
    obtain ⟨f', h3, h4⟩ := ih'
    exact ⟨_, .mul h1 (.up (by decide) h3), h2.mul h4⟩
  | div h h' ih ih' =>
    obtain ⟨e', h1, h2⟩ := ih
    obtain ⟨f', h3, h4⟩ := ih'
    obtain ⟨g, hg, hg'⟩ := h1.divR h3
    exact ⟨g, hg, hg'.trans (h2.div h4)⟩
  | sum h ih => obtain ⟨e', h1, h2⟩ := ih; exact ⟨e', .up (by decide) (.up (by decide) h1), h2⟩
  | add h h' ih ih' =>
    obtain ⟨e', h1, h2⟩ := ih
    obtain ⟨f', h3, h4⟩ := ih'
    exact ⟨_, .add h1 (.up (by decide) h3), h2.add h4⟩
  | sub h h' ih ih' =>
    obtain ⟨e', h1, h2⟩ := ih
    obtain ⟨f', h3, h4⟩ := ih'
    obtain ⟨g, hg, hg'⟩ := h1.subR h3
    exact ⟨g, hg, hg'.trans (h2.sub h4)⟩

theorem val?_spec {e : AExpr} {q : ℚ} (h : e.val? = some q) : Constant e ∧ ∀ ρ μ, e.eval ρ μ = q := by
  induction e generalizing q with
  | num p => simp [AExpr.val?] at h; subst h; exact ⟨trivial, fun _ _ => rfl⟩
  | x | u | app => simp [AExpr.val?] at h
  | neg a ih =>
    simp only [AExpr.val?] at h
    cases ha : a.val? with
    | none => rw [ha] at h; simp at h
    | some p =>
      rw [ha] at h
      simp only [Option.some.injEq] at h
      subst h
      exact ⟨(ih ha).1, fun ρ μ => by simp [AExpr.eval, (ih ha).2]⟩
  | add a b iha ihb | sub a b iha ihb | mul a b iha ihb | div a b iha ihb | pow a b iha ihb =>
    simp only [AExpr.val?] at h
    cases ha : a.val? with
    | none => rw [ha] at h; simp at h
    | some p =>
      cases hb : b.val? with
      | none => rw [ha, hb] at h; simp at h
      | some r =>
        rw [ha, hb] at h
        simp only [Option.some.injEq, Option.ite_none_right_eq_some] at h
        first
        | (subst h
           exact ⟨⟨(iha ha).1, (ihb hb).1⟩, fun ρ μ => by simp [AExpr.eval, (iha ha).2, (ihb hb).2]⟩)
        | (obtain ⟨h1, rfl⟩ := h
           refine ⟨⟨(iha ha).1, (ihb hb).1⟩, fun ρ μ => ?_⟩
           have hr : (r : ℝ) = ((r.num : ℤ) : ℝ) := by
             have := Rat.num_div_den r
             rw [h1] at this
             rw [← this]; simp
           simp only [AExpr.eval, (iha ha).2, (ihb hb).2]
           rw [hr, Real.rpow_intCast]
           push_cast
           rfl)

theorem divByZero_of_zeroDiv {e : AExpr} (h : e.zeroDiv = true) : DivByZero e := by
  induction e with
  | num | x | u => simp [AExpr.zeroDiv] at h
  | neg a ih | app f a ih => exact ih h
  | add a b iha ihb | sub a b iha ihb | mul a b iha ihb =>
    simp only [AExpr.zeroDiv, Bool.or_eq_true] at h
    exact h.imp iha ihb
  | div a b iha ihb =>
    simp only [AExpr.zeroDiv, Bool.or_eq_true, Bool.and_eq_true, beq_iff_eq] at h
    rcases h with (h | h) | h
    · exact Or.inl (iha h)
    · exact Or.inr (Or.inl (ihb h))
    · obtain ⟨k1, k2⟩ := val?_spec h.2
      exact Or.inr (Or.inr ⟨k1, by rw [k2]; simp⟩)
  | pow a b iha ihb =>
    simp only [AExpr.zeroDiv, Bool.or_eq_true, Bool.and_eq_true, beq_iff_eq, Option.any_eq_true, decide_eq_true_eq] at h
    rcases h with (h | h) | h
    · exact Or.inl (iha h)
    · exact Or.inr (Or.inl (ihb h))
    · obtain ⟨k1, k2⟩ := val?_spec h.1
      obtain ⟨q, hq, hq0⟩ := h.2
      obtain ⟨k3, k4⟩ := val?_spec hq
      exact Or.inr (Or.inr ⟨k1, k3, by rw [k2]; simp, by rw [k4]; exact_mod_cast hq0⟩)

theorem built_ok {r : Except Err AExpr} {v : AExpr} (h : built r = .ok v) : r = .ok v := by
  unfold built at h
  split at h
  · split_ifs at h; rw [← h]
  · cases h

theorem built_of_not {e : AExpr} (h : ¬ DivByZero e) : built (.ok e) = .ok e := by
  have : e.zeroDiv = false := by
    by_contra hc
    exact h (divByZero_of_zeroDiv (by simpa using hc))
  simp [built, this]

theorem Par.ne_nil {k ts e} (h : Par funcs k ts e) : ts ≠ [] := by
  induction h <;> simp_all

/-- Brackets are balanced. -/
theorem Par.balanced {k ts e} (h : Par funcs k ts e) :
    ∀ d s, afterGroup d (ts ++ s) = afterGroup d s := by
  induction h with
  | num | x | u => intro d s; cases d <;> rfl
  | brackets h hb ih =>
    intro d s
    have : afterGroup (d + 1) (.rpar :: s) = afterGroup d s := by rfl
    simp only [List.cons_append, List.append_assoc, List.singleton_append, List.nil_append]
    cases d <;> simp only [afterGroup] <;> rw [ih] <;> rfl
  | call h hf hb ih =>
    intro d s
    simp only [List.cons_append, List.append_assoc, List.nil_append]
    cases d <;> simp only [afterGroup] <;> rw [ih] <;> rfl
  | up hk h ih => exact ih
  | neg h ih => intro d s; cases d <;> simp only [List.cons_append, afterGroup] <;> exact ih _ s
  | pow h h' ih ih' | div h h' ih ih' | mul h h' ih ih' | sub h h' ih ih' | add h h' ih ih' =>
    intro d s
    simp only [List.append_assoc, List.cons_append]
    rw [ih]
    cases d <;> simp only [afterGroup] <;> exact ih' _ s

/-- The binary operators. -/
def isBinOp : Tok → Prop
  | .plus | .minus | .star | .slash | .dstar => True
  | _ => False

theorem leading_bin {a b : List Tok} {o : Tok} {e e' : AExpr} (ho : isBinOp o)
    (h : ∃ g eg s, Par funcs 6 g eg ∧ noLeadingGroupMinus g ∧ a = .lpar :: g ++ .rpar :: s ∧
      ((s = [] ∧ e = eg) ∨ ∃ o s', s = o :: s' ∧ isBinOp o)) :
    ∃ g eg s, Par funcs 6 g eg ∧ noLeadingGroupMinus g ∧ a ++ o :: b = .lpar :: g ++ .rpar :: s ∧
      ((s = [] ∧ e' = eg) ∨ ∃ o s', s = o :: s' ∧ isBinOp o) := by
  obtain ⟨g, eg, s, h1, h2, h3, h4⟩ := h
  refine ⟨g, eg, s ++ o :: b, h1, h2, by rw [h3]; simp, Or.inr ?_⟩
  rcases h4 with ⟨rfl, -⟩ | ⟨o', s', rfl, ho'⟩
  · exact ⟨_, _, rfl, ho⟩
  · exact ⟨o', s' ++ o :: b, rfl, ho'⟩

/-- An expression that starts with a bracket starts with a bracket group. -/
theorem Par.leading {k ts e} (h : Par funcs k ts e) (hl : ts.head? = some .lpar) :
    ∃ g eg s, Par funcs 6 g eg ∧ noLeadingGroupMinus g ∧ ts = .lpar :: g ++ .rpar :: s ∧
      ((s = [] ∧ e = eg) ∨ ∃ o s', s = o :: s' ∧ isBinOp o) := by
  induction h with
  | num | x | u => simp at hl
  | @brackets a e h hb ih => exact ⟨a, e, [], h, hb, rfl, Or.inl ⟨rfl, rfl⟩⟩
  | call h hf hb ih => simp at hl
  | up hk h ih => exact ih hl
  | neg h ih => simp at hl
  | @pow a b _ _ h h' ih ih' | @div a b _ _ h h' ih ih' | @mul a b _ _ h h' ih ih' | @sub a b _ _ h h' ih ih'
  | @add a b _ _ h h' ih ih' =>
    have hne := h.ne_nil
    exact leading_bin (by trivial) (ih (by cases a <;> simp_all))

/-- Left-associative levels as lists of operands. -/
structure Chain (funcs : FName → Bool) (L : ℕ) (o : Tok) (f : AExpr → AExpr → AExpr) (a : List Tok) (e : AExpr)
    (a0 : List Tok) (e0 : AExpr) (l : List (List Tok × AExpr)) : Prop where
  first : Par funcs L a0 e0
  operands : ∀ p ∈ l, Par funcs L p.1 p.2
  toks : a = a0 ++ l.flatMap (fun p => o :: p.1)
  val : e = (l.map Prod.snd).foldl f e0

theorem Chain.snoc {L o f a e a0 e0 l b g} (h : Chain funcs L o f a e a0 e0 l) (hb : Par funcs L b g) :
    Chain funcs L o f (a ++ o :: b) (f e g) a0 e0 (l ++ [(b, g)]) := by
  obtain ⟨h1, h2, h3, h4⟩ := h
  refine ⟨h1, ?_, ?_, ?_⟩
  · intro p hp
    rcases List.mem_append.1 hp with hp | hp
    · exact h2 p hp
    · simp only [List.mem_singleton] at hp; subst hp; exact hb
  · simp [h3]
  · simp [h4]

theorem Chain.single {L o f a e} (h : Par funcs L a e) : Chain funcs L o f a e a e [] :=
  ⟨h, by simp, by simp, rfl⟩

theorem par3_chain {a e} (h : Par funcs 3 a e) : ∃ a0 e0 l, Chain funcs 2 .slash .div a e a0 e0 l := by
  generalize hk : 3 = k at h
  induction h with
  | num | x | u | brackets | call | neg | pow | mul | sub | add => omega
  | @up j a e _ h _ =>
    obtain rfl : j = 2 := by omega
    exact ⟨_, _, [], .single h⟩
  | div h h' ih _ => obtain ⟨a0, e0, l, hc⟩ := ih rfl; exact ⟨_, _, _, hc.snoc h'⟩

theorem par4_chain {a e} (h : Par funcs 4 a e) : ∃ a0 e0 l, Chain funcs 3 .star .mul a e a0 e0 l := by
  generalize hk : 4 = k at h
  induction h with
  | num | x | u | brackets | call | neg | pow | div | sub | add => omega
  | @up j a e _ h _ =>
    obtain rfl : j = 3 := by omega
    exact ⟨_, _, [], .single h⟩
  | mul h h' ih _ => obtain ⟨a0, e0, l, hc⟩ := ih rfl; exact ⟨_, _, _, hc.snoc h'⟩

theorem par5_chain {a e} (h : Par funcs 5 a e) : ∃ a0 e0 l, Chain funcs 4 .minus .sub a e a0 e0 l := by
  generalize hk : 5 = k at h
  induction h with
  | num | x | u | brackets | call | neg | pow | div | mul | add => omega
  | @up j a e _ h _ =>
    obtain rfl : j = 4 := by omega
    exact ⟨_, _, [], .single h⟩
  | sub h h' ih _ => obtain ⟨a0, e0, l, hc⟩ := ih rfl; exact ⟨_, _, _, hc.snoc h'⟩

theorem par6_chain {a e} (h : Par funcs 6 a e) : ∃ a0 e0 l, Chain funcs 5 .plus .add a e a0 e0 l := by
  generalize hk : 6 = k at h
  induction h with
  | num | x | u | brackets | call | neg | pow | div | mul | sub => omega
  | @up j a e _ h _ =>
    obtain rfl : j = 5 := by omega
    exact ⟨_, _, [], .single h⟩
  | add h h' ih _ => obtain ⟨a0, e0, l, hc⟩ := ih rfl; exact ⟨_, _, _, hc.snoc h'⟩

/-- The operator tokens that would continue an expression of the level. -/
def follows : ℕ → Tok → Prop
  | k, .dstar => 2 ≤ k
  | k, .slash => 3 ≤ k
  | k, .star => 4 ≤ k
  | k, .minus => 5 ≤ k
  | k, .plus => 6 ≤ k
  | _, _ => False

/-- The remaining input does not continue an expression of the level. -/
def Stops (k : ℕ) (rest : List Tok) : Prop := ∀ t, rest.head? = some t → ¬ follows k t

theorem Stops.mono {k j : ℕ} (h : j ≤ k) {rest : List Tok} (hs : Stops k rest) : Stops j rest := by
  intro t ht hf
  refine hs t ht ?_
  cases t <;> simp only [follows] at hf ⊢ <;> omega

/-- A parse result converts to the expression. -/
def Converts (t : PTree) (e : AExpr) (d : ℕ) : Prop := ∀ k ≥ d, convertTree k t = .ok e

theorem pmany_stop (p : P) (o : Tok) (po : POp) (n : ℕ) (rest : List Tok) (h : rest.head? ≠ some o) :
    pmany p o po n rest = ([], rest) := by
  cases n with
  | zero => rfl
  | succ n =>
    cases rest with
    | nil => rfl
    | cons t r =>
      have : t ≠ o := fun e => h (by simp [e])
      simp [pmany, this]

/-- Items of a binary level. -/
def binItems (po : POp) (ts : List PTree) : List PTree := ts.flatMap (fun t => [.op po, t])

theorem everyOther_binItems (po : POp) (t : PTree) (ts : List PTree) :
    everyOther (t :: binItems po ts) = t :: ts := by
  induction ts generalizing t with
  | nil => rfl
  | cons a ts ih => simp [binItems, everyOther] at ih ⊢; exact ih a

theorem length_binItems (po : POp) (ts : List PTree) : (binItems po ts).length = 2 * ts.length := by
  induction ts with
  | nil => rfl
  | cons a ts ih => simp [binItems] at ih ⊢; omega

theorem mapM_ok {α β : Type} (f : α → Except Err β) (l : List α) (l' : List β)
    (h : List.Forall₂ (fun a b => f a = .ok b) l l') : l.mapM f = .ok l' := by
  induction h with
  | nil => rfl
  | cons h1 _ ih => rw [List.mapM_cons, h1, ih]; rfl

theorem convert_bin {po : POp} {f : AExpr → AExpr → AExpr} (hf : po.apply? = some f) {t : PTree} {e : AExpr} {d : ℕ}
    (ht : Converts t e d) (ts : List PTree) (es : List AExpr) (hne : ts ≠ [])
    (hts : List.Forall₂ (fun t e => Converts t e d) ts es) :
    Converts (.list (t :: binItems po ts)) (es.foldl f e) (d + 1) := by
  intro k hk
  obtain ⟨k, rfl⟩ : ∃ j, k = j + 1 := ⟨k - 1, by omega⟩
  have hl := length_binItems po ts
  obtain ⟨a, ts', rfl⟩ := List.exists_cons_of_ne_nil hne
  have he := everyOther_binItems po t (a :: ts')
  have hm : (t :: a :: ts').mapM (convertTree k) = .ok (e :: es) := by
    refine mapM_ok _ _ _ (.cons (ht k (by omega)) ?_)
    exact hts.imp fun t e h => h k (by omega)
  have hb : binItems po (a :: ts') = .op po :: a :: binItems po ts' := rfl
  rw [hb] at he hl ⊢
  simp only [convertTree]
  rw [if_pos (by simp only [List.length_cons] at hl ⊢; omega)]
  simp only [hf, he, hm, foldOp]

theorem pmany_chain {L : ℕ} {o : Tok} {po : POp} {p : P} {d : ℕ} (rest : List Tok) (hrest : rest.head? ≠ some o)
    (l : List (List Tok × AExpr)) (n : ℕ) (hn : l.length ≤ n)
    (hp : ∀ q ∈ l, ∀ s, (s = rest ∨ s.head? = some o) → s.length ≤ (l.flatMap (fun p => o :: p.1) ++ rest).length - 2 →
      q.1.length + s.length < (l.flatMap (fun p => o :: p.1) ++ rest).length →
      ∃ t, p (q.1 ++ s) = some (t, s) ∧ Converts t q.2 d)
    (hne : ∀ q ∈ l, q.1 ≠ []) :
    ∃ ts, pmany p o po n (l.flatMap (fun p => o :: p.1) ++ rest) = (binItems po ts, rest) ∧
      List.Forall₂ (fun t e => Converts t e d) ts (l.map Prod.snd) := by
  induction l generalizing n with
  | nil => exact ⟨[], by simpa [binItems] using pmany_stop p o po n rest hrest, .nil⟩
  | cons q l ih =>
    obtain ⟨n, rfl⟩ : ∃ j, n = j + 1 := ⟨n - 1, by simp at hn; omega⟩
    have hq := hne q (by simp)
    have hqpos : 0 < q.1.length := List.length_pos_iff.2 hq
    obtain ⟨ts, h1, h2⟩ := ih n (by simpa using hn)
      (fun q' hq' s hs hlen hlen' => hp q' (by simp [hq']) s hs (by simp at hlen ⊢; omega) (by simp at hlen' ⊢; omega))
      (fun q' hq' => hne q' (by simp [hq']))
    obtain ⟨t, ht, hc⟩ := hp q (by simp) (l.flatMap (fun p => o :: p.1) ++ rest) (by
      cases l with
      | nil => left; simp
      | cons q' l => right; simp) (by simp; omega) (by simp)
    refine ⟨t :: ts, ?_, .cons hc h2⟩
    simp only [List.flatMap_cons, List.cons_append, List.append_assoc, pmany, if_true]
    rw [ht]
    simp only [h1, binItems, List.flatMap_cons]
    rfl

/-- A bracket cannot start what only an operator or a closing bracket starts. -/
theorem pegParse_none (n : ℕ) (s : Sym) (t : Tok) (r : List Tok)
    (ht : t = .rpar ∨ t = .plus ∨ t = .star ∨ t = .slash ∨ t = .dstar) : pegParse funcs n s (t :: r) = none := by
  cases n with
  | zero => rfl
  | succ n =>
    have h0 : patom funcs (pegParse funcs n .nested) (pegParse funcs n (.lvl 6)) n (t :: r) = none := by
      rcases ht with rfl | rfl | rfl | rfl | rfl <;> rfl
    have h1 : punary (pegParse funcs n (.lvl 1)) (patom funcs (pegParse funcs n .nested) (pegParse funcs n (.lvl 6)) n)
        (t :: r) = none := by
      rcases ht with rfl | rfl | rfl | rfl | rfl <;> exact h0
    have hn : pnested (pegParse funcs n .nested) (pegParse funcs n (.lvl 6)) n (t :: r) = none := by
      rcases ht with rfl | rfl | rfl | rfl | rfl <;> rfl
    unfold pegParse
    dsimp only
    split <;> simp only [pbin, h0, h1, hn]

theorem pegParse_nested_none (n : ℕ) (ts : List Tok) (h : ts.head? ≠ some .lpar) :
    pegParse funcs n .nested ts = none := by
  cases n with
  | zero => rfl
  | succ n =>
    simp only [pegParse, pnested]
    split
    · simp at h
    · rfl

/-- What the parser does on correct input of one level. -/
def LvlOk (funcs : FName → Bool) (k : ℕ) (ts : List Tok) (e : AExpr) : Prop :=
  ∀ rest n, Stops k rest → (ts ++ rest).length ≤ n →
    ∃ t, pegParse funcs n (.lvl k) (ts ++ rest) = some (t, rest) ∧ Converts t e (2 * ts.length)

/-- What `nested_paren_expr` does on bracketed input: no match, or the right match; always the latter if the text does not start
with a bracket. -/
def NestedOk (funcs : FName → Bool) (a : List Tok) (e : AExpr) : Prop :=
  ∀ rest n, (a ++ rest).length + 2 ≤ n →
    ((pegParse funcs n .nested (.lpar :: a ++ .rpar :: rest) = none ∧ a.head? = some .lpar) ∨
      ∃ t, pegParse funcs n .nested (.lpar :: a ++ .rpar :: rest) = some (.list [t], rest) ∧ Converts t e (2 * a.length + 1))

theorem pitems_stop (nested expr : P) (n : ℕ) (t : Tok) (r : List Tok) (h1 : nested (t :: r) = none)
    (h2 : expr (t :: r) = none) : pitems nested expr n (t :: r) = ([], t :: r) := by
  cases n with
  | zero => rfl
  | succ n => simp [pitems, h1, h2]

theorem stops_rpar (k : ℕ) (r : List Tok) : Stops k (.rpar :: r) := by
  intro t ht; simp only [List.head?_cons, Option.some.injEq] at ht; subst ht; exact fun h => h

theorem stops_nil (k : ℕ) : Stops k [] := by intro t ht; simp at ht

theorem nestedOk {a : List Tok} {e : AExpr} (h : Par funcs 6 a e) (hb : noLeadingGroupMinus a)
    (hl : LvlOk funcs 6 a e) (ih : ∀ g eg, g.length < a.length → Par funcs 6 g eg → noLeadingGroupMinus g → NestedOk funcs g eg) :
    NestedOk funcs a e := by
  intro rest n hn
  obtain ⟨n, rfl⟩ : ∃ j, n = j + 1 := ⟨n - 1, by omega⟩
  obtain ⟨n, rfl⟩ : ∃ j, n = j + 1 := ⟨n - 1, by omega⟩
  simp only [List.length_append] at hn
  obtain ⟨t, ht, hc⟩ := hl (.rpar :: rest) (n + 1) (stops_rpar 6 rest) (by simp; omega)
  have hstop : ∀ m, pitems (pegParse funcs (n + 1) .nested) (pegParse funcs (n + 1) (.lvl 6)) m (.rpar :: rest) =
      ([], .rpar :: rest) := fun m =>
    pitems_stop _ _ m _ _ (pegParse_none _ _ _ _ (Or.inl rfl)) (pegParse_none _ _ _ _ (Or.inl rfl))
  -- when the inner `nested` alternative does not match
  have key : pegParse funcs (n + 1) .nested (a ++ .rpar :: rest) = none →
      pegParse funcs (n + 1 + 1) .nested (.lpar :: a ++ .rpar :: rest) = some (.list [t], rest) := by
    intro hnone
    rw [pegParse]
    simp only [pnested, List.cons_append]
    have : pitems (pegParse funcs (n + 1) .nested) (pegParse funcs (n + 1) (.lvl 6)) (n + 1) (a ++ .rpar :: rest) =
        ([t], .rpar :: rest) := by
      rw [pitems, hnone, ht]
      simp only [hstop]
    rw [this]
  by_cases hlp : a.head? = some .lpar
  · obtain ⟨g, eg, s, hg, hgb, rfl, hs⟩ := h.leading hlp
    have hgn := ih g eg (by simp) hg hgb (s ++ .rpar :: rest) (n + 1) (by simp at hn ⊢; omega)
    rcases hgn with ⟨hnone, -⟩ | ⟨t', ht', hc'⟩
    · right
      refine ⟨t, key (by simpa using hnone), fun k hk => hc k (by omega)⟩
    · have heq : (.lpar :: g ++ .rpar :: s) ++ .rpar :: rest = .lpar :: g ++ .rpar :: (s ++ .rpar :: rest) := by simp
      rcases hs with ⟨rfl, rfl⟩ | ⟨o, s', rfl, ho⟩
      · right
        refine ⟨.list [t'], ?_, ?_⟩
        · rw [pegParse]
          simp only [pnested, List.cons_append]
          have : pitems (pegParse funcs (n + 1) .nested) (pegParse funcs (n + 1) (.lvl 6)) (n + 1)
              ((.lpar :: g ++ [.rpar]) ++ .rpar :: rest) = ([.list [t']], .rpar :: rest) := by
            rw [pitems]
            rw [heq, ht']
            simp only [List.nil_append, hstop]
          simp only [List.cons_append] at this
          rw [this]
        · intro k hk
          obtain ⟨k, rfl⟩ : ∃ j, k = j + 1 := ⟨k - 1, by simp at hk; omega⟩
          rw [convertTree]
          exact hc' k (by simp at hk ⊢; omega)
      · left
        refine ⟨?_, rfl⟩
        have hom : o ≠ .minus := by
          rintro rfl
          have := hg.balanced 0 (.rpar :: .minus :: s')
          simp only [noLeadingGroupMinus, List.cons_append] at hb
          rw [this] at hb
          simp [afterGroup] at hb
        have honone : ∀ sym, pegParse funcs (n + 1) sym (o :: s' ++ .rpar :: rest) = none := by
          intro sym
          refine pegParse_none _ _ _ _ ?_
          cases o <;> simp [isBinOp] at ho hom ⊢
        have : pitems (pegParse funcs (n + 1) .nested) (pegParse funcs (n + 1) (.lvl 6)) (n + 1)
            ((.lpar :: g ++ .rpar :: o :: s') ++ .rpar :: rest) = ([.list [t']], o :: s' ++ .rpar :: rest) := by
          rw [pitems]
          rw [heq, ht']
          have := pitems_stop _ _ n _ _ (honone .nested) (honone (.lvl 6))
          simp only [List.cons_append] at this ⊢
          rw [show s'.append (Tok.rpar :: rest) = s' ++ Tok.rpar :: rest from rfl] at this
          rw [this]
        rw [pegParse]
        simp only [pnested, List.cons_append] at this ⊢
        rw [this]
        cases o <;> simp [isBinOp] at ho ⊢
  · right
    exact ⟨t, key (pegParse_nested_none _ _ (by
      have := h.ne_nil
      cases a <;> simp_all)), fun k hk => hc k (by omega)⟩

/-! ### all levels -/

theorem lvl0Ok {N : ℕ} (ihN : ∀ k ts e, ts.length < N → k ≤ 6 → Par funcs k ts e → LvlOk funcs k ts e)
    (ihNest : ∀ g eg, g.length < N → Par funcs 6 g eg → noLeadingGroupMinus g → NestedOk funcs g eg)
    {ts e} (h : Par funcs 0 ts e) (hlen : ts.length ≤ N) : LvlOk funcs 0 ts e := by
  intro rest n hs hn
  have hpos : 0 < ts.length := List.length_pos_iff.2 h.ne_nil
  obtain ⟨n, rfl⟩ : ∃ j, n = j + 1 := ⟨n - 1, by simp at hn; omega⟩
  cases h with
  | num q => exact ⟨.num q, rfl, fun k hk => by obtain ⟨k, rfl⟩ : ∃ j, k = j + 1 := ⟨k - 1, by simp at hk; omega⟩; rfl⟩
  | x q => exact ⟨.x q, rfl, fun k hk => by obtain ⟨k, rfl⟩ : ∃ j, k = j + 1 := ⟨k - 1, by simp at hk; omega⟩; rfl⟩
  | u q => exact ⟨.u q, rfl, fun k hk => by obtain ⟨k, rfl⟩ : ∃ j, k = j + 1 := ⟨k - 1, by simp at hk; omega⟩; rfl⟩
  | @call f a e h hf hb =>
    simp only [List.cons_append, List.append_assoc, List.nil_append, List.length_append, List.length_cons,
      List.length_nil] at hn hlen ⊢
    have hbm : noLeadingGroupMinus a := by
      cases a with
      | nil => trivial
      | cons t r => cases t <;> simp [noLeadingGroupMinus] at hb ⊢
    obtain ⟨-, hc⟩ | ⟨t, ht, hc⟩ := ihNest a e (by omega) h hbm rest n (by simp; omega)
    · exact absurd hc hb
    · refine ⟨.list [.fn f, .list [t]], ?_, ?_⟩
      · simp only [pegParse, patom, hf, if_true]
        simp only [List.cons_append] at ht
        rw [ht]
      · intro k hk
        obtain ⟨k, rfl⟩ : ∃ j, k = j + 1 := ⟨k - 1, by omega⟩
        simp only [convertTree]
        rw [if_neg (by simp)]
        have : [t].mapM (convertTree k) = .ok [e] := mapM_ok _ _ _ (.cons (hc k (by omega)) .nil)
        rw [this]
  | @brackets a e h hb =>
    simp only [List.cons_append, List.append_assoc, List.nil_append, List.length_append, List.length_cons,
      List.length_nil] at hn hlen ⊢
    obtain ⟨hc, hlp⟩ | ⟨t, ht, hc⟩ := ihNest a e (by omega) h hb rest (n + 1) (by simp; omega)
    · obtain ⟨t, ht, hc'⟩ := ihN 6 a e (by omega) le_rfl h (.rpar :: rest) n (stops_rpar _ _) (by simp; omega)
      refine ⟨t, ?_, fun k hk => hc' k (by omega)⟩
      simp only [pegParse] at hc ⊢
      simp only [List.cons_append] at hc
      simp only [patom, hc, ht]
    · refine ⟨.list [t], ?_, ?_⟩
      · simp only [pegParse] at ht ⊢
        simp only [List.cons_append] at ht
        simp only [patom, ht]
      · intro k hk
        obtain ⟨k, rfl⟩ : ∃ j, k = j + 1 := ⟨k - 1, by omega⟩
        rw [convertTree]
        exact hc k (by omega)

theorem lvl1Ok {N : ℕ} (ihN : ∀ k ts e, ts.length < N → k ≤ 6 → Par funcs k ts e → LvlOk funcs k ts e)
    (h0 : ∀ ts e, Par funcs 0 ts e → ts.length ≤ N → LvlOk funcs 0 ts e)
    {ts e} (h : Par funcs 1 ts e) (hlen : ts.length ≤ N) : LvlOk funcs 1 ts e := by
  intro rest n hs hn
  have hpos : 0 < ts.length := List.length_pos_iff.2 h.ne_nil
  obtain ⟨n, rfl⟩ : ∃ j, n = j + 1 := ⟨n - 1, by simp at hn; omega⟩
  cases h with
  | up hk h =>
    obtain ⟨t, ht, hc⟩ := h0 _ _ h hlen rest (n + 1) (hs.mono (by omega)) hn
    refine ⟨t, ?_, hc⟩
    simp only [pegParse] at ht ⊢
    rw [← ht]
    cases h <;> rfl
  | @neg a e h =>
    simp only [List.cons_append, List.length_cons, List.length_append] at hn hlen ⊢
    obtain ⟨t, ht, hc⟩ := ihN 1 a e (by omega) (by omega) h rest n hs (by simp; omega)
    refine ⟨.list [.op .umin, t], ?_, ?_⟩
    · simp only [pegParse, punary, ht]
    · intro k hk
      obtain ⟨k, rfl⟩ : ∃ j, k = j + 1 := ⟨k - 1, by omega⟩
      simp only [convertTree]
      rw [if_neg (by simp), hc k (by omega)]

theorem pbin_up {first operand : P} {o : Tok} {po : POp} {n : ℕ} {ts rest : List Tok} {t : PTree}
    (h : first ts = some (t, rest)) (hr : rest.head? ≠ some o) : pbin first operand o po n ts = some (t, rest) := by
  simp only [pbin, h, pmany_stop operand o po n rest hr]

theorem pbin_list {first operand : P} {o : Tok} {po : POp} {n : ℕ} {ts r rest : List Tok} {t : PTree} {l : List PTree}
    (h : first ts = some (t, r)) (hm : pmany operand o po n r = (l, rest)) (hl : l ≠ []) :
    pbin first operand o po n ts = some (.list (t :: l), rest) := by
  obtain ⟨a, l, rfl⟩ := List.exists_cons_of_ne_nil hl
  simp only [pbin, h, hm]

theorem lvl2Ok {N : ℕ} (ihN : ∀ k ts e, ts.length < N → k ≤ 6 → Par funcs k ts e → LvlOk funcs k ts e)
    (h1 : ∀ ts e, Par funcs 1 ts e → ts.length ≤ N → LvlOk funcs 1 ts e)
    {ts e} (h : Par funcs 2 ts e) (hlen : ts.length ≤ N) : LvlOk funcs 2 ts e := by
  intro rest n hs hn
  have hpos : 0 < ts.length := List.length_pos_iff.2 h.ne_nil
  obtain ⟨n, rfl⟩ : ∃ j, n = j + 1 := ⟨n - 1, by simp at hn; omega⟩
  have hr : rest.head? ≠ some .dstar := fun e => hs _ e (by simp [follows])
  cases h with
  | up hk h =>
    obtain ⟨t, ht, hc⟩ := h1 _ _ h hlen rest (n + 1) (hs.mono (by omega)) hn
    refine ⟨t, ?_, hc⟩
    simp only [pegParse] at ht ⊢
    exact pbin_up ht hr
  | @pow a b e f h h' =>
    have hapos : 0 < a.length := List.length_pos_iff.2 h.ne_nil
    have hbpos : 0 < b.length := List.length_pos_iff.2 h'.ne_nil
    simp only [List.cons_append, List.append_assoc, List.length_cons, List.length_append] at hn hlen ⊢
    obtain ⟨t, ht, hc⟩ := h1 a e h (by omega) (.dstar :: (b ++ rest)) (n + 1)
      (by intro t ht; simp at ht; subst ht; simp [follows]) (by simp; omega)
    obtain ⟨t', ht', hc'⟩ := ihN 2 b f (by omega) (by omega) h' rest n hs (by simp; omega)
    have hm : pmany (pegParse funcs n (.lvl 2)) .dstar .pow n (.dstar :: (b ++ rest)) = (binItems .pow [t'], rest) := by
      obtain ⟨n, rfl⟩ : ∃ j, n = j + 1 := ⟨n - 1, by omega⟩
      simp only [pmany, if_true, ht', pmany_stop _ _ _ _ rest hr]
      rfl
    refine ⟨.list (t :: binItems .pow [t']), ?_, ?_⟩
    · simp only [pegParse] at ht ⊢
      exact pbin_list ht hm (by simp [binItems])
    · have := convert_bin (po := .pow) rfl (d := 2 * (a.length + b.length)) (fun k hk => hc k (by omega)) [t'] [f] (by simp)
        (.cons (fun k hk => hc' k (by omega)) .nil)
      exact fun k hk => this k (by omega)

theorem chainOk {N L : ℕ} {o : Tok} {po : POp} {f : AExpr → AExpr → AExpr} (hf : po.apply? = some f) (hL : L + 1 ≤ 6)
    (ho : ∀ k, follows k o ↔ L + 1 ≤ k)
    (hdef : ∀ n ts, pegParse funcs (n + 1) (.lvl (L + 1)) ts =
      pbin (pegParse funcs (n + 1) (.lvl L)) (pegParse funcs n (.lvl L)) o po n ts)
    (ihN : ∀ k ts e, ts.length < N → k ≤ 6 → Par funcs k ts e → LvlOk funcs k ts e)
    (hlow : ∀ ts e, Par funcs L ts e → ts.length ≤ N → LvlOk funcs L ts e)
    {ts e a0 e0 l} (h : Chain funcs L o f ts e a0 e0 l) (hlen : ts.length ≤ N) : LvlOk funcs (L + 1) ts e := by
  obtain ⟨hfirst, hops, htoks, hval⟩ := h
  intro rest n hs hn
  have hpos : 0 < a0.length := List.length_pos_iff.2 hfirst.ne_nil
  have hr : rest.head? ≠ some o := fun e => hs _ e ((ho _).2 le_rfl)
  subst htoks
  simp only [List.append_assoc, List.length_append] at hn hlen ⊢
  obtain ⟨n, rfl⟩ : ∃ j, n = j + 1 := ⟨n - 1, by omega⟩
  have hstop : ∀ s, s = rest ∨ s.head? = some o → Stops L s := by
    rintro s (rfl | h)
    · exact hs.mono (by omega)
    · intro t ht hft
      rw [h] at ht
      simp only [Option.some.injEq] at ht
      subst ht
      exact absurd ((ho _).1 hft) (by omega)
  obtain ⟨t, ht, hc⟩ := hlow a0 e0 hfirst (by omega) (l.flatMap (fun p => o :: p.1) ++ rest) (n + 1)
    (hstop _ (by cases l <;> simp)) (by simp only [List.length_append]; omega)
  have hlenl : l.length ≤ (l.flatMap (fun p => o :: p.1)).length := by
    clear hops hval hn hlen ht
    induction l with
    | nil => simp
    | cons q l ih => simp at ih ⊢; omega
  obtain ⟨trees, hm, hconv⟩ := pmany_chain (L := L) (po := po) (p := pegParse funcs n (.lvl L))
    (d := 2 * (a0.length + (l.flatMap (fun p => o :: p.1)).length) - 1) rest hr l n (by omega)
    (by
      intro q hq s hs' hsl hql
      have hmem : q.1.length + 1 ≤ (l.flatMap (fun p => o :: p.1)).length := by
        clear hops hval hn hlen ht hs' hsl hql hlenl
        induction l with
        | nil => simp at hq
        | cons q' l ih =>
          rcases List.mem_cons.1 hq with rfl | hq
          · simp
          · have := ih hq; simp at this ⊢; omega
      obtain ⟨t, ht, hc⟩ := ihN L q.1 q.2 (by omega) (by omega) (hops q hq) s n (hstop s hs')
        (by simp only [List.length_append] at hql ⊢; omega)
      exact ⟨t, ht, fun k hk => hc k (by omega)⟩)
    (fun q hq => (hops q hq).ne_nil)
  rw [hdef]
  rcases l with _ | ⟨q, l⟩
  · simp only [List.flatMap_nil, List.nil_append] at ht ⊢
    refine ⟨t, pbin_up ht hr, ?_⟩
    subst hval
    intro k hk
    exact hc k (by simp at hk ⊢; omega)
  · have hne : trees ≠ [] := by rintro rfl; cases hconv
    refine ⟨.list (t :: binItems po trees), pbin_list ht hm ?_, ?_⟩
    · obtain ⟨a, l', rfl⟩ := List.exists_cons_of_ne_nil hne
      simp [binItems]
    · rw [hval]
      have := convert_bin hf (d := 2 * (a0.length + ((q :: l).flatMap (fun p => o :: p.1)).length) - 1)
        (fun k hk => hc k (by simp at hk ⊢; omega)) trees _ hne hconv
      exact fun k hk => this k (by simp at hk ⊢; omega)

theorem lvlOk (N : ℕ) : (∀ k ts e, ts.length ≤ N → k ≤ 6 → Par funcs k ts e → LvlOk funcs k ts e) ∧
    (∀ g eg, g.length ≤ N → Par funcs 6 g eg → noLeadingGroupMinus g → NestedOk funcs g eg) := by
  induction N using Nat.strong_induction_on with
  | _ N ih =>
    have ihN : ∀ k ts e, ts.length < N → k ≤ 6 → Par funcs k ts e → LvlOk funcs k ts e :=
      fun k ts e hl hk h => (ih ts.length hl).1 k ts e le_rfl hk h
    have ihNest : ∀ g eg, g.length < N → Par funcs 6 g eg → noLeadingGroupMinus g → NestedOk funcs g eg :=
      fun g eg hl h hb => (ih g.length hl).2 g eg le_rfl h hb
    have h0 : ∀ ts e, Par funcs 0 ts e → ts.length ≤ N → LvlOk funcs 0 ts e := fun ts e h hl => lvl0Ok ihN ihNest h hl
    have h1 : ∀ ts e, Par funcs 1 ts e → ts.length ≤ N → LvlOk funcs 1 ts e := fun ts e h hl => lvl1Ok ihN h0 h hl
    have h2 : ∀ ts e, Par funcs 2 ts e → ts.length ≤ N → LvlOk funcs 2 ts e := fun ts e h hl => lvl2Ok ihN h1 h hl
    have h3 : ∀ ts e, Par funcs 3 ts e → ts.length ≤ N → LvlOk funcs 3 ts e := fun ts e h hl => by
      obtain ⟨a0, e0, l, hc⟩ := par3_chain h
      exact chainOk (po := .div) rfl (by omega) (fun k => by simp [follows]) (fun n ts => rfl) ihN h2 hc hl
    have h4 : ∀ ts e, Par funcs 4 ts e → ts.length ≤ N → LvlOk funcs 4 ts e := fun ts e h hl => by
      obtain ⟨a0, e0, l, hc⟩ := par4_chain h
      exact chainOk (po := .mul) rfl (by omega) (fun k => by simp [follows]) (fun n ts => rfl) ihN h3 hc hl
    have h5 : ∀ ts e, Par funcs 5 ts e → ts.length ≤ N → LvlOk funcs 5 ts e := fun ts e h hl => by
      obtain ⟨a0, e0, l, hc⟩ := par5_chain h
      exact chainOk (po := .sub) rfl (by omega) (fun k => by simp [follows]) (fun n ts => rfl) ihN h4 hc hl
    have h6 : ∀ ts e, Par funcs 6 ts e → ts.length ≤ N → LvlOk funcs 6 ts e := fun ts e h hl => by
      obtain ⟨a0, e0, l, hc⟩ := par6_chain h
      exact chainOk (po := .add) rfl (by omega) (fun k => by simp [follows]) (fun n ts => rfl) ihN h5 hc hl
    refine ⟨fun k ts e hl hk h => ?_, fun g eg hl h hb => ?_⟩
    · interval_cases k
      exacts [h0 _ _ h hl, h1 _ _ h hl, h2 _ _ h hl, h3 _ _ h hl, h4 _ _ h hl, h5 _ _ h hl, h6 _ _ h hl]
    · exact nestedOk h hb (h6 g eg h hl) fun g' eg' hl' h' hb' => ihNest g' eg' (by omega) h' hb'

end Fossil

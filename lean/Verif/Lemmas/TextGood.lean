/- Soundness of the character parser: what it accepts is generated by the grammar. -/
import Verif.Lemmas.TextSound

namespace Fossil
open Spec

variable {funcs : FName → Bool}

/-- The leftmost leaf is not a binary operator, and no list on the way to it is empty. -/
inductive Lead : PTree → Prop
  | num (q) : Lead (.num q)
  | x (i) : Lead (.x i)
  | u (i) : Lead (.u i)
  | fn (f) : Lead (.fn f)
  | umin : Lead (.op .umin)
  | list {a l} (h : Lead a) : Lead (.list (a :: l))

/-- Not a bare operator or function name. -/
def Operand : PTree → Prop
  | .op _ => False
  | .fn _ => False
  | _ => True

/-- No opening bracket directly before a closing one. -/
def NB (ts : List Tok) : Prop := ∀ p r, ts ≠ p ++ .lpar :: .rpar :: r

theorem NB.left {a b : List Tok} (h : NB (a ++ b)) : NB a := fun p r e => h p (r ++ b) (by simp [e])
theorem NB.right {a b : List Tok} (h : NB (a ++ b)) : NB b := fun p r e => h (a ++ p) r (by simp [e])

/-- A number, a variable or an input. -/
def IsAtom : PTree → Prop
  | .num _ => True
  | .x _ => True
  | .u _ => True
  | _ => False

/-- An atom followed by something that starts like an operand is never converted. -/
theorem convert_atom_lead (n : ℕ) : ∀ a b l, IsAtom a → Lead b → ∀ e, convertTree n (.list (a :: b :: l)) ≠ .ok e := by
  induction n with
  | zero => intro a b l _ _ e h; simp [convertTree] at h
  | succ n ih =>
    intro a b l ha hb e h
    have key : ∀ (a b : PTree) l, IsAtom a → Lead b → convertTree n (.list (flattenOnce (a :: b :: l))) ≠ .ok e := by
      intro a b l ha hb
      have hfl : ∃ b' l', flattenOnce (a :: b :: l) = a :: b' :: l' ∧ Lead b' := by
        have : flattenOnce (a :: b :: l) = a :: flattenOnce (b :: l) := by
          cases a <;> simp_all [IsAtom, flattenOnce]
        rw [this]
        cases hb with
        | num => exact ⟨_, _, rfl, .num _⟩
        | x => exact ⟨_, _, rfl, .x _⟩
        | u => exact ⟨_, _, rfl, .u _⟩
        | fn => exact ⟨_, _, rfl, .fn _⟩
        | umin => exact ⟨_, _, rfl, .umin⟩
        | list hb => exact ⟨_, _, rfl, hb⟩
      obtain ⟨b', l', e1, h1⟩ := hfl
      rw [e1]
      exact ih _ _ _ ha h1 e
    have k1 := key a b l ha hb
    simp only [convertTree] at h
    split_ifs at h with hp
    · cases hb <;> simp [POp.apply?] at h
    · cases a <;> simp_all [IsAtom]

theorem convert_two (n : ℕ) (a b : PTree) (l : List PTree) (ha : Operand a) (hb : Operand b) (hb' : Lead b) (e : AExpr) :
    convertTree n (.list (a :: b :: l)) ≠ .ok e := by
  by_cases hat : IsAtom a
  · exact convert_atom_lead n a b l hat hb' e
  · cases n with
    | zero => intro h; simp [convertTree] at h
    | succ n =>
      intro h
      cases a with
      | list al =>
        simp only [convertTree] at h
        split_ifs at h
        cases b <;> simp_all [Operand]
      | num => exact hat trivial
      | x => exact hat trivial
      | u => exact hat trivial
      | op => exact ha
      | fn => exact ha

theorem mapM_inv {α β : Type} (f : α → Except Err β) : ∀ (l : List α) (l' : List β), l.mapM f = .ok l' →
    List.Forall₂ (fun a b => f a = .ok b) l l' := by
  intro l
  induction l with
  | nil => intro l' h; cases l' <;> simp [pure, Except.pure] at h; exact .nil
  | cons a l ih =>
    intro l' h
    rw [List.mapM_cons] at h
    rcases h1 : f a with e | b
    · rw [h1] at h; cases h
    · rw [h1] at h
      rcases h2 : l.mapM f with e | bs
      · rw [h2] at h; cases h
      · rw [h2] at h
        cases h
        exact .cons h1 (ih _ h2)

/-- A parse result and the tokens it came from. -/
structure GoodP (funcs : FName → Bool) (k : ℕ) (ts : List Tok) (t : PTree) : Prop where
  lead : Lead t
  operand : Operand t
  conv : ∀ n e, convertTree n t = .ok e → ParA funcs k ts e

theorem GoodP.up {k ts t} (h : GoodP funcs k ts t) (hk : k < 6) : GoodP funcs (k + 1) ts t := ⟨h.lead, h.operand, fun n e c => .up hk (h.conv n e c)⟩

/-- The result of a bracketed group. -/
structure GoodN (funcs : FName → Bool) (ts : List Tok) (t : PTree) : Prop where
  ex : ∃ a l, ts = .lpar :: a ++ [.rpar] ∧ t = .list l ∧ Lead t ∧ (∀ n e, l.mapM (convertTree n) = .ok [e] → ParA funcs 6 a e) ∧
    ∀ n e, convertTree n t = .ok e → ParA funcs 6 a e

theorem GoodN.good {ts t} (h : GoodN funcs ts t) : GoodP funcs 0 ts t := by
  obtain ⟨a, l, rfl, rfl, h1, h2, h3⟩ := h.ex
  exact ⟨h1, trivial, fun n e c => .brackets (h3 n e c)⟩

/-- What a parser returns comes from tokens it consumed. -/
def SoundP (N : ℕ) (Q : List Tok → PTree → Prop) (p : PC) : Prop :=
  ∀ cs t r, cs.length < N → p cs = some (t, r) → ∃ ts, Pre ts cs r ∧ (NB ts → Q ts t)

theorem pmanyC_sound {N : ℕ} {Q : List Tok → PTree → Prop} {p : PC} (hp : SoundP N Q p) (he : Eats p) {o : List Char} {tok : Tok} (ho : TokText tok o)
    {po : POp} : ∀ k cs, cs.length ≤ N → ∃ parts : List (List Tok × PTree), (pmanyC p o po k cs).1 = binItems po (parts.map Prod.snd) ∧
      Pre (parts.flatMap (fun q => tok :: q.1)) cs (pmanyC p o po k cs).2 ∧ ∀ q ∈ parts, NB q.1 → Q q.1 q.2 := by
  intro k
  induction k with
  | zero => intro cs _; exact ⟨[], rfl, .nil _, by simp⟩
  | succ k ih =>
    intro cs hN
    have nil : ∃ parts : List (List Tok × PTree), ([] : List PTree) = binItems po (parts.map Prod.snd) ∧
      Pre (parts.flatMap (fun q => tok :: q.1)) cs cs ∧ ∀ q ∈ parts, NB q.1 → Q q.1 q.2 := ⟨[], rfl, .nil _, by simp⟩
    unfold pmanyC
    rcases h : litC o cs with _ | r
    · exact nil
    · have l1 := litC_length (tokText_ne ho) h
      rcases h' : p r with _ | ⟨e, r'⟩
      · simpa only [h'] using nil
      · have l2 := he _ _ _ h'
        obtain ⟨ts, h1, h2⟩ := hp _ _ _ (by omega) h'
        obtain ⟨parts, h3, h4, h5⟩ := ih r' (by omega)
        refine ⟨(ts, e) :: parts, ?_, ?_, ?_⟩
        · simp only [h', h3]; rfl
        · simp only [h', List.flatMap_cons]
          exact ((lit_pre ho h).append h1).append h4
        · intro q hq
          rcases List.mem_cons.1 hq with rfl | hq
          · exact h2
          · exact h5 q hq

theorem pmanyC_stop {p : PC} (he : Eats p) {o : List Char} (ho : o ≠ []) {po : POp} : ∀ k cs, cs.length ≤ k → ∀ r3,
    litC o (pmanyC p o po k cs).2 = some r3 → p r3 = none := by
  intro k
  induction k with
  | zero =>
    intro cs hk r3 h
    have := litC_length ho h
    simp [pmanyC] at this
    omega
  | succ k ih =>
    intro cs hk r3
    unfold pmanyC
    rcases h : litC o cs with _ | r
    · intro h2; simp only at h2; rw [h] at h2; cases h2
    · have l1 := litC_length ho h
      rcases h' : p r with _ | ⟨e, r'⟩
      · intro h2
        simp only [h'] at h2
        rw [h] at h2
        cases h2
        exact h'
      · have l2 := he _ _ _ h'
        intro h2
        simp only [h'] at h2
        exact ih r' (by omega) r3 h2

theorem convert_bin_inv {po : POp} {f : AExpr → AExpr → AExpr} (hf : po.apply? = some f) {t : PTree} {ts : List PTree} (hne : ts ≠ []) {n : ℕ} {e : AExpr}
    (h : convertTree n (.list (t :: binItems po ts)) = .ok e) :
    ∃ m e0 es, convertTree m t = .ok e0 ∧ List.Forall₂ (fun t e => convertTree m t = .ok e) ts es ∧ e = es.foldl f e0 := by
  cases n with
  | zero => simp [convertTree] at h
  | succ n =>
    have hl := length_binItems po ts
    have he := everyOther_binItems po t ts
    obtain ⟨a, ts', rfl⟩ := List.exists_cons_of_ne_nil hne
    have hb : binItems po (a :: ts') = .op po :: a :: binItems po ts' := rfl
    rw [hb] at he hl h
    simp only [convertTree] at h
    rw [if_pos (by simp only [List.length_cons] at hl ⊢; omega)] at h
    simp only [hf, he] at h
    rcases hm : (t :: a :: ts').mapM (convertTree n) with er | args
    · rw [hm] at h; cases h
    · rw [hm] at h
      have := mapM_inv _ _ _ hm
      cases this with
      | @cons _ e0 _ es h1 h2 =>
        simp only [foldOp, Except.ok.injEq] at h
        exact ⟨n, e0, es, h1, h2, h.symm⟩

theorem fold_par {k k' : ℕ} {tok : Tok} {f : AExpr → AExpr → AExpr}
    (step : ∀ {a b e g}, ParA funcs k a e → ParA funcs k' b g → ParA funcs k (a ++ tok :: b) (f e g)) {m : ℕ} :
    ∀ (parts : List (List Tok × PTree)) (es : List AExpr) a e0, ParA funcs k a e0 → (∀ q ∈ parts, GoodP funcs k' q.1 q.2) →
      List.Forall₂ (fun t e => convertTree m t = .ok e) (parts.map Prod.snd) es → ParA funcs k (a ++ parts.flatMap (fun q => tok :: q.1)) (es.foldl f e0) := by
  intro parts
  induction parts with
  | nil => intro es a e0 h0 _ hf; cases hf; simpa using h0
  | cons q parts ih =>
    intro es a e0 h0 hq hf
    cases hf with
    | cons h1 h2 =>
      have := ih _ _ _ (step h0 ((hq q (by simp)).conv m _ h1)) (fun q' hq' => hq q' (by simp [hq'])) h2
      simpa using this

theorem nb_parts {tok : Tok} {parts : List (List Tok × PTree)} (h : NB (parts.flatMap (fun q => tok :: q.1))) : ∀ q ∈ parts, NB q.1 := by
  induction parts with
  | nil => simp
  | cons a l ih =>
    rw [List.flatMap_cons] at h
    intro q hq
    rcases List.mem_cons.1 hq with rfl | hq
    · have := h.left
      rw [show tok :: q.1 = [tok] ++ q.1 from rfl] at this
      exact this.right
    · exact ih h.right q hq

theorem pbinC_sound {N k k' : ℕ} (hk : k < 6) {first operand : PC} (h1 : SoundP (N + 1) (GoodP funcs k) first) (h2 : SoundP N (GoodP funcs k') operand)
    (e1 : Eats first) (e2 : Eats operand) {o : List Char} {tok : Tok} (ho : TokText tok o) {po : POp} {f : AExpr → AExpr → AExpr}
    (hf : po.apply? = some f) {n : ℕ}
    (step : ∀ {a b e g}, ParA funcs (k + 1) a e → ParA funcs k' b g → ParA funcs (k + 1) (a ++ tok :: b) (f e g)) :
    SoundP (N + 1) (GoodP funcs (k + 1)) (pbinC first operand o po n) := by
  intro cs t r hN h
  unfold pbinC at h
  rcases hfst : first cs with _ | ⟨t0, r0⟩
  · simp [hfst] at h
  · have l1 := e1 _ _ _ hfst
    obtain ⟨a, p1, g1⟩ := h1 _ _ _ hN hfst
    obtain ⟨parts, q1, q2, q3⟩ := pmanyC_sound h2 e2 ho (po := po) n r0 (by omega)
    simp only [hfst] at h
    rcases hm : pmanyC operand o po n r0 with ⟨l, r'⟩
    rw [hm] at h q1 q2
    simp only at q1 q2
    by_cases hl : l = []
    · subst hl
      simp only [Option.some.injEq, Prod.mk.injEq] at h
      obtain ⟨rfl, rfl⟩ := h
      exact ⟨a, p1, fun hb => (g1 hb).up hk⟩
    · obtain ⟨x, l', rfl⟩ := List.exists_cons_of_ne_nil hl
      simp only [Option.some.injEq, Prod.mk.injEq] at h
      obtain ⟨rfl, rfl⟩ := h
      refine ⟨_, p1.append q2, fun hb => ?_⟩
      have ga := g1 hb.left
      have gp : ∀ q ∈ parts, GoodP funcs k' q.1 q.2 := fun q hq => q3 q hq (nb_parts hb.right q hq)
      refine ⟨.list ga.lead, trivial, fun m e hc => ?_⟩
      rw [q1] at hc
      obtain ⟨m', e0, es, c1, c2, rfl⟩ := convert_bin_inv hf (by rintro e; rw [e] at q1; cases q1) hc
      exact fold_par step parts es a e0 (.up hk (ga.conv _ _ c1)) gp c2

/-- A power has at most one exponent: the exponent takes every further `**` itself. -/
theorem powC_sound {N n : ℕ} {first operand : PC} (h1 : SoundP (N + 1) (GoodP funcs 1) first) (h2 : SoundP N (GoodP funcs 2) operand)
    (e1 : Eats first) (e2 : Eats operand)
    (hstop : ∀ cs t r r3, cs.length + 1 < N → operand cs = some (t, r) → litC ['*', '*'] r = some r3 → operand r3 = none) :
    SoundP (N + 1) (GoodP funcs 2) (pbinC first operand ['*', '*'] .pow n) := by
  intro cs t r hN h
  unfold pbinC at h
  rcases hfst : first cs with _ | ⟨t0, r0⟩
  · simp [hfst] at h
  · have l1 := e1 _ _ _ hfst
    obtain ⟨a, p1, g1⟩ := h1 _ _ _ hN hfst
    have none_case : some (t0, r0) = some (t, r) → ∃ ts, Pre ts cs r ∧ (NB ts → GoodP funcs 2 ts t) := by
      intro h
      simp only [Option.some.injEq, Prod.mk.injEq] at h
      obtain ⟨rfl, rfl⟩ := h
      exact ⟨a, p1, fun hb => (g1 hb).up (by omega)⟩
    simp only [hfst] at h
    cases n with
    | zero => exact none_case h
    | succ n =>
      unfold pmanyC at h
      rcases hl : litC ['*', '*'] r0 with _ | r1
      · simp only [hl] at h; exact none_case h
      · have l2 := litC_length (by simp) hl
        rcases ho : operand r1 with _ | ⟨t1, r2⟩
        · simp only [hl, ho] at h; exact none_case h
        · obtain ⟨b, p2, g2⟩ := h2 _ _ _ (by omega) ho
          have hz : pmanyC operand ['*', '*'] .pow n r2 = ([], r2) := by
            cases n with
            | zero => rfl
            | succ n =>
              unfold pmanyC
              rcases hl' : litC ['*', '*'] r2 with _ | r3
              · rfl
              · simp only [hstop _ _ _ _ (by omega) ho hl']
          simp only [hl, ho, hz, Option.some.injEq, Prod.mk.injEq] at h
          obtain ⟨rfl, rfl⟩ := h
          refine ⟨a ++ ([.dstar] ++ b), p1.append ((lit_pre .dstar hl).append p2), fun hb => ?_⟩
          have ga := g1 hb.left
          have gb := g2 hb.right.right
          refine ⟨.list ga.lead, trivial, fun m e hc => ?_⟩
          obtain ⟨m', e0, es, c1, c2, rfl⟩ := convert_bin_inv (po := .pow) (ts := [t1]) rfl (by simp) hc
          cases c2 with
          | cons c2 c3 =>
            cases c3
            exact .pow (ga.conv _ _ c1) (gb.conv _ _ c2)

theorem pitemsC_sound {N : ℕ} {nested expr : PC} (h1 : SoundP N (GoodN funcs) nested) (h2 : SoundP N (GoodP funcs 6) expr) (e1 : Eats nested) (e2 : Eats expr) :
    ∀ k cs, cs.length < N → ∃ parts : List (List Tok × PTree), (pitemsC nested expr k cs).1 = parts.map Prod.snd ∧
      Pre (parts.flatMap Prod.fst) cs (pitemsC nested expr k cs).2 ∧ ∀ q ∈ parts, NB q.1 → GoodP funcs 6 q.1 q.2 := by
  intro k
  induction k with
  | zero => intro cs _; exact ⟨[], rfl, .nil _, by simp⟩
  | succ k ih =>
    intro cs hN
    unfold pitemsC
    have go : ∀ ts t r, Pre ts cs r → r.length < cs.length → (NB ts → GoodP funcs 6 ts t) →
        ∃ parts : List (List Tok × PTree), t :: (pitemsC nested expr k r).1 = parts.map Prod.snd ∧
          Pre (parts.flatMap Prod.fst) cs (pitemsC nested expr k r).2 ∧ ∀ q ∈ parts, NB q.1 → GoodP funcs 6 q.1 q.2 := by
      intro ts t r p1 hl g
      obtain ⟨parts, q1, q2, q3⟩ := ih r (by omega)
      refine ⟨(ts, t) :: parts, by rw [q1]; rfl, p1.append q2, ?_⟩
      intro q hq
      rcases List.mem_cons.1 hq with rfl | hq
      · exact g
      · exact q3 q hq
    rcases h : nested cs with _ | ⟨t, r⟩
    · rcases h' : expr cs with _ | ⟨t, r⟩
      · simp only [h']; exact ⟨[], rfl, .nil _, by simp⟩
      · obtain ⟨ts, p1, g⟩ := h2 _ _ _ hN h'
        simp only [h']
        exact go ts t r p1 (e2 _ _ _ h') g
    · obtain ⟨ts, p1, g⟩ := h1 _ _ _ hN h
      exact go ts t r p1 (e1 _ _ _ h) fun hb => by
        have := (g hb).good
        exact ⟨this.lead, this.operand, fun n e c => (this.conv n e c).to6 (by omega)⟩

theorem pnestedC_sound {N : ℕ} {nested expr : PC} (h1 : SoundP N (GoodN funcs) nested) (h2 : SoundP N (GoodP funcs 6) expr) (e1 : Eats nested) (e2 : Eats expr)
    {n : ℕ} : SoundP (N + 1) (GoodN funcs) (pnestedC nested expr n) := by
  intro cs t r hN h
  unfold pnestedC at h
  rcases hl : litC ['('] cs with _ | r1
  · simp [hl] at h
  · have l1 := litC_length (by simp) hl
    obtain ⟨parts, q1, q2, q3⟩ := pitemsC_sound h1 h2 e1 e2 n r1 (by omega)
    simp only [hl] at h
    rcases hr : litC [')'] (pitemsC nested expr n r1).2 with _ | r2
    · simp [hr] at h
    · simp only [hr, Option.some.injEq, Prod.mk.injEq] at h
      obtain ⟨rfl, rfl⟩ := h
      refine ⟨[.lpar] ++ (parts.flatMap Prod.fst ++ [.rpar]), (lit_pre .lpar hl).append (q2.append (lit_pre .rpar hr)), fun hb => ⟨parts.flatMap Prod.fst, _, by simp, rfl, ?_⟩⟩
      have hne : parts ≠ [] := by
        rintro rfl
        exact hb [] [] (by simp)
      have hnb : ∀ q ∈ parts, NB q.1 := by
        have := hb.right.left
        clear hb hne q1 q2 q3
        induction parts with
        | nil => simp
        | cons a l ih =>
          rw [List.flatMap_cons] at this
          intro q hq
          rcases List.mem_cons.1 hq with rfl | hq
          · exact this.left
          · exact ih this.right q hq
      have gp : ∀ q ∈ parts, GoodP funcs 6 q.1 q.2 := fun q hq => q3 q hq (hnb q hq)
      rw [q1]
      obtain ⟨q, parts', rfl⟩ := List.exists_cons_of_ne_nil hne
      refine ⟨.list (gp q (by simp)).lead, fun m e hm => ?_, fun m e hm => ?_⟩
      · have := mapM_inv _ _ _ hm
        rw [List.map_cons] at this
        cases this with
        | cons c1 c2 =>
          cases parts' with
          | nil => simpa using (gp q (by simp)).conv _ _ c1
          | cons => cases c2
      · cases parts' with
        | nil =>
          cases m with
          | zero => simp [convertTree] at hm
          | succ m => simpa using (gp q (by simp)).conv m _ (by simpa [convertTree] using hm)
        | cons q' parts' =>
          exact absurd hm (convert_two m _ _ _ (gp q (by simp)).operand (gp q' (by simp)).operand (gp q' (by simp)).lead e)

theorem convert_call_inv {f : FName} {l : List PTree} {n : ℕ} {e : AExpr} (h : convertTree n (.list [.fn f, .list l]) = .ok e) :
    ∃ m e', l.mapM (convertTree m) = .ok [e'] ∧ e = .app f e' := by
  cases n with
  | zero => simp [convertTree] at h
  | succ n =>
    simp only [convertTree] at h
    rw [if_neg (by simp)] at h
    rcases hm : l.mapM (convertTree n) with er | es
    · simp [hm] at h
    · rcases es with _ | ⟨e', _ | ⟨e'', es⟩⟩
      · simp [hm] at h
      · simp only [hm, Except.ok.injEq] at h
        exact ⟨n, e', hm, h.symm⟩
      · simp [hm] at h

theorem convert_neg_inv {t : PTree} {n : ℕ} {e : AExpr} (h : convertTree n (.list [.op .umin, t]) = .ok e) :
    ∃ m e', convertTree m t = .ok e' ∧ e = .neg e' := by
  cases n with
  | zero => simp [convertTree] at h
  | succ n =>
    simp only [convertTree] at h
    rw [if_neg (by simp)] at h
    rcases hm : convertTree n t with er | e'
    · simp [hm] at h
    · simp only [hm, Except.ok.injEq] at h
      exact ⟨n, e', hm, h.symm⟩

theorem patomC_sound {N : ℕ} {nested expr : PC} (h1 : SoundP N (GoodN funcs) nested) (h2 : SoundP N (GoodP funcs 6) expr) (e1 : Eats nested) (e2 : Eats expr)
    {n : ℕ} : SoundP (N + 1) (GoodP funcs 0) (patomC funcs nested expr n) := by
  intro cs t r hN h
  have leaf : ∀ {t e}, IsAtom t → (∀ n, convertTree (n + 1) t = .ok e) → ∀ n e', convertTree n t = .ok e' → e' = e := by
    intro t e _ h n e' h'
    cases n with
    | zero => simp [convertTree] at h'
    | succ n => rw [h n] at h'; cases h'; rfl
  unfold patomC at h
  rcases ha : numberC cs with _ | ⟨q, r1⟩
  · rcases hb : varC 'x' cs with _ | ⟨i, r1⟩
    · rcases hc : varC 'u' cs with _ | ⟨i, r1⟩
      · simp only [ha, hb, hc] at h
        split at h
        · rename_i m hm
          cases h
          rcases hf : fnC funcs cs with _ | ⟨f, r1⟩
          · simp [hf] at hm
          · obtain ⟨hfn, pf⟩ := fnC_sound hf
            have l1 := pf.length_le
            simp only [List.length_singleton] at l1
            simp only [hf] at hm
            rcases hn : nested r1 with _ | ⟨e, r2⟩
            · simp [hn] at hm
            · obtain ⟨ts, p1, g⟩ := h1 _ _ _ (by omega) hn
              simp only [hn, Option.some.injEq, Prod.mk.injEq] at hm
              obtain ⟨rfl, rfl⟩ := hm
              refine ⟨_, pf.append p1, fun hb => ?_⟩
              obtain ⟨a, l, rfl, rfl, g1, g2, g3⟩ := (g hb.right).ex
              refine ⟨.list (.fn f), trivial, fun m e hc => ?_⟩
              obtain ⟨m', e', c1, rfl⟩ := convert_call_inv hc
              exact .call (g2 _ _ c1) hfn
        · split at h
          · rename_i m hm
            cases h
            obtain ⟨ts, p1, g⟩ := pnestedC_sound h1 h2 e1 e2 _ _ _ hN hm
            exact ⟨ts, p1, fun hb => (g hb).good⟩
          · rcases hl : litC ['('] cs with _ | r1
            · simp [hl] at h
            · have l1 := litC_length (by simp) hl
              simp only [hl] at h
              rcases he : expr r1 with _ | ⟨e, r2⟩
              · simp [he] at h
              · obtain ⟨ts, p1, g⟩ := h2 _ _ _ (by omega) he
                simp only [he] at h
                obtain ⟨r3, hr, h3⟩ := Option.map_eq_some_iff.1 h
                cases h3
                refine ⟨[.lpar] ++ (ts ++ [.rpar]), (lit_pre .lpar hl).append (p1.append (lit_pre .rpar hr)), fun hb => ?_⟩
                have := g hb.right.left
                exact ⟨this.lead, this.operand, fun m e' hc => by simpa using ParA.brackets (this.conv m e' hc)⟩
      · simp only [ha, hb, hc, Option.some.injEq, Prod.mk.injEq] at h
        obtain ⟨rfl, rfl⟩ := h
        obtain ⟨w, d, hw, hd, rfl, rfl⟩ := varC_sound hc
        refine ⟨_, .one hw (.u hd), fun _ => ⟨.u _, trivial, fun n e he => ?_⟩⟩
        rw [leaf (t := .u _) trivial (fun n => rfl) n e he]
        exact .u _
    · simp only [ha, hb, Option.some.injEq, Prod.mk.injEq] at h
      obtain ⟨rfl, rfl⟩ := h
      obtain ⟨w, d, hw, hd, rfl, rfl⟩ := varC_sound hb
      refine ⟨_, .one hw (.x hd), fun _ => ⟨.x _, trivial, fun n e he => ?_⟩⟩
      rw [leaf (t := .x _) trivial (fun n => rfl) n e he]
      exact .x _
  · simp only [ha, Option.some.injEq, Prod.mk.injEq] at h
    obtain ⟨rfl, rfl⟩ := h
    refine ⟨_, numberC_sound ha, fun _ => ⟨.num _, trivial, fun n e he => ?_⟩⟩
    rw [leaf (t := .num _) trivial (fun n => rfl) n e he]
    exact .num _

theorem punaryC_sound {N : ℕ} {self atom : PC} (h1 : SoundP N (GoodP funcs 1) self) (h2 : SoundP (N + 1) (GoodP funcs 0) atom) :
    SoundP (N + 1) (GoodP funcs 1) (punaryC self atom) := by
  intro cs t r hN h
  unfold punaryC at h
  split at h
  · rename_i m hm
    cases h
    rcases hl : litC ['-'] cs with _ | r1
    · simp [hl] at hm
    · have l1 := litC_length (by simp) hl
      simp only [hl] at hm
      rcases he : self r1 with _ | ⟨e, r2⟩
      · simp [he] at hm
      · obtain ⟨ts, p1, g⟩ := h1 _ _ _ (by omega) he
        simp only [he, Option.some.injEq, Prod.mk.injEq] at hm
        obtain ⟨rfl, rfl⟩ := hm
        refine ⟨[.minus] ++ ts, (lit_pre .minus hl).append p1, fun hb => ⟨.list .umin, trivial, fun m e' hc => ?_⟩⟩
        obtain ⟨m', e'', c1, rfl⟩ := convert_neg_inv hc
        exact .neg ((g hb.right).conv _ _ c1)
  · obtain ⟨ts, p1, g⟩ := h2 _ _ _ hN h
    exact ⟨ts, p1, fun hb => (g hb).up (by omega)⟩

theorem lvl2_stop (n : ℕ) (cs : List Char) (t : PTree) (r r3 : List Char) (hn : cs.length < n) (h : pegC funcs n (.lvl 2) cs = some (t, r))
    (hl : litC ['*', '*'] r = some r3) : pegC funcs n (.lvl 2) r3 = none := by
  have l1 := pegC_eats n (.lvl 2) _ _ _ h
  have l2 := litC_length (by simp) hl
  cases n with
  | zero => omega
  | succ n =>
    rw [pegC_fuel (n + 1) n (.lvl 2) r3 (by omega) (by omega)]
    rw [pegC_succ] at h
    change pbinC (lv1 funcs (pegC funcs n) n) (pegC funcs n (.lvl 2)) ['*', '*'] .pow n cs = some (t, r) at h
    unfold pbinC at h
    rcases hf : lv1 funcs (pegC funcs n) n cs with _ | ⟨t0, r0⟩
    · simp [hf] at h
    · have e1 : Eats (lv1 funcs (pegC funcs n) n) := lv_eats (pegC_eats n) n (.lvl 1)
      have l3 := e1 _ _ _ hf
      have st := pmanyC_stop (pegC_eats (funcs := funcs) n (.lvl 2)) (o := ['*', '*']) (by simp) (po := .pow) n r0 (by omega) r3
      simp only [hf] at h
      rcases hm : pmanyC (pegC funcs n (.lvl 2)) ['*', '*'] .pow n r0 with ⟨l, r'⟩
      rw [hm] at h st
      rcases l with _ | ⟨x, l⟩
      · simp only [Option.some.injEq, Prod.mk.injEq] at h
        have hr : r' = r0 := by
          cases n with
          | zero => cases hm; rfl
          | succ n =>
            unfold pmanyC at hm
            rcases h1 : litC ['*', '*'] r0 with _ | r1
            · rw [h1] at hm; cases hm; rfl
            · rw [h1] at hm
              rcases h2 : pegC funcs (n + 1) (.lvl 2) r1 with _ | ⟨t1, r2⟩
              · simp only [h2] at hm; cases hm; rfl
              · simp only [h2] at hm; cases hm
        rw [← h.2, ← hr] at hl
        exact st hl
      · simp only [Option.some.injEq, Prod.mk.injEq] at h
        rw [← h.2] at hl
        exact st hl

/-- Every parse result comes from tokens the grammar generates. -/
theorem pegC_sound (n : ℕ) : SoundP n (GoodN funcs) (pegC funcs n .nested) ∧ ∀ k ≤ 6, SoundP n (GoodP funcs k) (pegC funcs n (.lvl k)) := by
  induction n with
  | zero => exact ⟨fun cs _ _ h => by omega, fun _ _ cs _ _ h => by omega⟩
  | succ n ih =>
    obtain ⟨ihN, ihL⟩ := ih
    have E : ∀ s, Eats (pegC funcs n s) := pegC_eats n
    have E' : ∀ s, Eats (lv funcs (pegC funcs n) n s) := lv_eats E n
    have h0 : SoundP (n + 1) (GoodP funcs 0) (lv0 funcs (pegC funcs n) n) := patomC_sound ihN (ihL 6 le_rfl) (E _) (E _)
    have h1 : SoundP (n + 1) (GoodP funcs 1) (lv1 funcs (pegC funcs n) n) := punaryC_sound (ihL 1 (by omega)) h0
    have h2 : SoundP (n + 1) (GoodP funcs 2) (lv2 funcs (pegC funcs n) n) :=
      powC_sound h1 (ihL 2 (by omega)) (E' (.lvl 1)) (E _) (fun cs t r r3 hl hp => lvl2_stop n cs t r r3 (by omega) hp)
    have h3 : SoundP (n + 1) (GoodP funcs 3) (lv3 funcs (pegC funcs n) n) :=
      pbinC_sound (by omega) h2 (ihL 2 (by omega)) (E' (.lvl 2)) (E _) .slash rfl (.div)
    have h4 : SoundP (n + 1) (GoodP funcs 4) (lv4 funcs (pegC funcs n) n) :=
      pbinC_sound (by omega) h3 (ihL 3 (by omega)) (E' (.lvl 3)) (E _) .star rfl (.mul)
    have h5 : SoundP (n + 1) (GoodP funcs 5) (lv5 funcs (pegC funcs n) n) :=
      pbinC_sound (by omega) h4 (ihL 4 (by omega)) (E' (.lvl 4)) (E _) .minus rfl (.sub)
    refine ⟨?_, fun k hk => ?_⟩
    · rw [pegC_succ]; exact pnestedC_sound ihN (ihL 6 le_rfl) (E _) (E _)
    · rw [pegC_succ]
      match k, hk with
      | 0, _ => exact h0
      | 1, _ => exact h1
      | 2, _ => exact h2
      | 3, _ => exact h3
      | 4, _ => exact h4
      | 5, _ => exact h5
      | 6, _ => exact pbinC_sound (by omega) h5 (ihL 5 (by omega)) (E' (.lvl 5)) (E _) .plus rfl (.add)

theorem Pre.layout {ts s r} (h : Pre ts s r) (hr : Blank r) : ∃ txts, List.Forall₂ TokText ts txts ∧ Layout txts s := by
  induction h with
  | nil s => exact ⟨[], .nil, hr⟩
  | cons hw ht _ ih =>
    obtain ⟨txts, h1, h2⟩ := ih hr
    exact ⟨_, .cons ht h1, _, _, hw, rfl, h2⟩

theorem Pre.split {a b s r} (h : Pre (a ++ b) s r) : ∃ s', Pre a s s' ∧ Pre b s' r := by
  induction a generalizing s with
  | nil => exact ⟨s, .nil _, h⟩
  | cons t a ih =>
    cases h with
    | cons hw ht h =>
      obtain ⟨s', h1, h2⟩ := ih h
      exact ⟨s', .cons hw ht h1, h2⟩

theorem Pre.suffix {a s r} (h : Pre a s r) : ∃ p, s = p ++ r := by
  induction h with
  | nil s => exact ⟨[], rfl⟩
  | cons hw ht _ ih => obtain ⟨p, rfl⟩ := ih; exact ⟨_, (List.append_assoc _ _ _).symm⟩

theorem Pre.nb {ts s r} (h : Pre ts s r) (hs : ∀ p w q, Blank w → s ≠ p ++ '(' :: w ++ ')' :: q) : NB ts := by
  rintro p q rfl
  obtain ⟨s', h1, h2⟩ := h.split
  obtain ⟨p', rfl⟩ := h1.suffix
  cases h2 with
  | cons hw ht h3 =>
    cases ht
    cases h3 with
    | cons hw' ht' h4 =>
      cases ht'
      rename_i w w' s''
      exact hs (p' ++ w) w' s'' hw' (by simp)

end Fossil

/- Whatever the character parser accepts is generated by the grammar. -/
import Verif.Lemmas.TextScan
import Verif.Lemmas.Tight

namespace Fossil
open Spec

variable {funcs : FName → Bool}

/-! ### Every successful parse consumes something, and enough fuel is enough -/

/-- A parser consumes at least one character. -/
def Eats (p : PC) : Prop := ∀ cs t r, p cs = some (t, r) → r.length < cs.length

theorem litC_length {txt cs r : List Char} (ht : txt ≠ []) (h : litC txt cs = some r) : r.length < cs.length := by
  obtain ⟨w, -, rfl⟩ := litC_sound h
  have := List.length_pos_iff.2 ht
  simp only [List.length_append]; omega

theorem pmanyC_length {p : PC} (hp : Eats p) {o : List Char} (ho : o ≠ []) {po : POp} : ∀ k cs, (pmanyC p o po k cs).2.length ≤ cs.length := by
  intro k
  induction k with
  | zero => intro cs; simp [pmanyC]
  | succ k ih =>
    intro cs
    unfold pmanyC
    rcases h : litC o cs with _ | r
    · simp
    · have := litC_length ho h
      rcases h' : p r with _ | ⟨e, r'⟩
      · simp [h']
      · have := hp _ _ _ h'
        have := ih r'
        simp only [h']
        omega

theorem pitemsC_length {nested expr : PC} (h1 : Eats nested) (h2 : Eats expr) : ∀ k cs, (pitemsC nested expr k cs).2.length ≤ cs.length := by
  intro k
  induction k with
  | zero => intro cs; simp [pitemsC]
  | succ k ih =>
    intro cs
    unfold pitemsC
    rcases h : nested cs with _ | ⟨e, r⟩
    · rcases h' : expr cs with _ | ⟨e, r⟩
      · simp
      · have := h2 _ _ _ h'
        have := ih r
        simp only; omega
    · have := h1 _ _ _ h
      have := ih r
      simp only; omega

theorem pbinC_eats {first operand : PC} (h1 : Eats first) (h2 : Eats operand) {o : List Char} (ho : o ≠ []) {po : POp} {n : ℕ} :
    Eats (pbinC first operand o po n) := by
  intro cs t r h
  unfold pbinC at h
  rcases hf : first cs with _ | ⟨e, r1⟩
  · simp [hf] at h
  · have l1 := h1 _ _ _ hf
    have l2 := pmanyC_length h2 ho (po := po) n r1
    simp only [hf] at h
    split at h
    · cases h; exact l1
    · rename_i hm
      cases h
      rw [hm] at l2
      simp only at l2; omega

theorem pnestedC_eats {nested expr : PC} (h1 : Eats nested) (h2 : Eats expr) {n : ℕ} : Eats (pnestedC nested expr n) := by
  intro cs t r h
  unfold pnestedC at h
  rcases hl : litC ['('] cs with _ | r1
  · simp [hl] at h
  · have l1 := litC_length (by simp) hl
    have l2 := pitemsC_length h1 h2 n r1
    simp only [hl] at h
    rcases hr : litC [')'] (pitemsC nested expr n r1).2 with _ | r2
    · simp [hr] at h
    · have := litC_length (by simp) hr
      simp only [hr, Option.some.injEq, Prod.mk.injEq] at h
      rw [← h.2]; omega

theorem patomC_eats {nested expr : PC} (h1 : Eats nested) (h2 : Eats expr) {n : ℕ} : Eats (patomC funcs nested expr n) := by
  intro cs t r h
  unfold patomC at h
  rcases ha : numberC cs with _ | ⟨q, r1⟩
  · rcases hb : varC 'x' cs with _ | ⟨i, r1⟩
    · rcases hc : varC 'u' cs with _ | ⟨i, r1⟩
      · simp only [ha, hb, hc] at h
        split at h
        · rename_i m hm
          cases h
          rcases hf : fnC funcs cs with _ | ⟨f, r1⟩
          · simp [hf] at hm
          · have l1 := (fnC_sound hf).2.length_le
            simp only [hf] at hm
            rcases hn : nested r1 with _ | ⟨e, r2⟩
            · simp [hn] at hm
            · have := h1 _ _ _ hn
              simp only [hn, Option.some.injEq, Prod.mk.injEq] at hm
              rw [← hm.2]; simp at l1; omega
        · split at h
          · rename_i m hm
            cases h
            exact pnestedC_eats h1 h2 _ _ _ hm
          · rcases hl : litC ['('] cs with _ | r1
            · simp [hl] at h
            · have l1 := litC_length (by simp) hl
              simp only [hl] at h
              rcases he : expr r1 with _ | ⟨e, r2⟩
              · simp [he] at h
              · have := h2 _ _ _ he
                simp only [he] at h
                obtain ⟨r3, hr, h3⟩ := Option.map_eq_some_iff.1 h
                have := litC_length (by simp) hr
                cases h3; omega
      · simp only [ha, hb, hc, Option.some.injEq, Prod.mk.injEq] at h
        obtain ⟨w, d, -, -, -, rfl⟩ := varC_sound hc
        rw [← h.2]; simp only [List.length_append, List.length_cons]; omega
    · simp only [ha, hb, Option.some.injEq, Prod.mk.injEq] at h
      obtain ⟨w, d, -, -, -, rfl⟩ := varC_sound hb
      rw [← h.2]; simp only [List.length_append, List.length_cons]; omega
  · simp only [ha, Option.some.injEq, Prod.mk.injEq] at h
    have := (numberC_sound ha).length_le
    rw [← h.2]; simp at this; omega

theorem punaryC_eats {self atom : PC} (h1 : Eats self) (h2 : Eats atom) : Eats (punaryC self atom) := by
  intro cs t r h
  unfold punaryC at h
  split at h
  · rename_i m hm
    cases h
    rcases hl : litC ['-'] cs with _ | r1
    · simp [hl] at hm
    · have l1 := litC_length (by simp) hl
      simp only [hl] at hm
      rcases he : self r1 with _ | ⟨e, r2⟩
      · simp [he] at hm
      · have := h1 _ _ _ he
        simp only [he, Option.some.injEq, Prod.mk.injEq] at hm
        rw [← hm.2]; omega
  · exact h2 _ _ _ h

/-- The levels built from the recursive calls `R`. -/
def lv0 (funcs : FName → Bool) (R : Sym → PC) (n : ℕ) : PC := patomC funcs (R .nested) (R (.lvl 6)) n
/-- Level 1. -/
def lv1 (funcs : FName → Bool) (R : Sym → PC) (n : ℕ) : PC := punaryC (R (.lvl 1)) (lv0 funcs R n)
/-- Level 2. -/
def lv2 (funcs : FName → Bool) (R : Sym → PC) (n : ℕ) : PC := pbinC (lv1 funcs R n) (R (.lvl 2)) ['*', '*'] .pow n
/-- Level 3. -/
def lv3 (funcs : FName → Bool) (R : Sym → PC) (n : ℕ) : PC := pbinC (lv2 funcs R n) (R (.lvl 2)) ['/'] .div n
/-- Level 4. -/
def lv4 (funcs : FName → Bool) (R : Sym → PC) (n : ℕ) : PC := pbinC (lv3 funcs R n) (R (.lvl 3)) ['*'] .mul n
/-- Level 5. -/
def lv5 (funcs : FName → Bool) (R : Sym → PC) (n : ℕ) : PC := pbinC (lv4 funcs R n) (R (.lvl 4)) ['-'] .sub n
/-- All levels. -/
def lv (funcs : FName → Bool) (R : Sym → PC) (n : ℕ) : Sym → PC
  | .nested => pnestedC (R .nested) (R (.lvl 6)) n
  | .lvl 0 => lv0 funcs R n
  | .lvl 1 => lv1 funcs R n
  | .lvl 2 => lv2 funcs R n
  | .lvl 3 => lv3 funcs R n
  | .lvl 4 => lv4 funcs R n
  | .lvl 5 => lv5 funcs R n
  | .lvl _ => pbinC (lv5 funcs R n) (R (.lvl 5)) ['+'] .add n

theorem pegC_succ (n : ℕ) (s : Sym) : pegC funcs (n + 1) s = lv funcs (pegC funcs n) n s := by
  rcases s with _ | (_ | _ | _ | _ | _ | _ | k) <;> rfl

theorem lv_eats {R : Sym → PC} (hR : ∀ s, Eats (R s)) (n : ℕ) (s : Sym) : Eats (lv funcs R n s) := by
  have h0 : Eats (lv0 funcs R n) := patomC_eats (hR _) (hR _)
  have h1 : Eats (lv1 funcs R n) := punaryC_eats (hR _) h0
  have h2 : Eats (lv2 funcs R n) := pbinC_eats h1 (hR _) (by simp)
  have h3 : Eats (lv3 funcs R n) := pbinC_eats h2 (hR _) (by simp)
  have h4 : Eats (lv4 funcs R n) := pbinC_eats h3 (hR _) (by simp)
  have h5 : Eats (lv5 funcs R n) := pbinC_eats h4 (hR _) (by simp)
  match s with
  | .nested => exact pnestedC_eats (hR _) (hR _)
  | .lvl 0 => exact h0
  | .lvl 1 => exact h1
  | .lvl 2 => exact h2
  | .lvl 3 => exact h3
  | .lvl 4 => exact h4
  | .lvl 5 => exact h5
  | .lvl (k + 6) => exact pbinC_eats h5 (hR _) (by simp)

theorem pegC_eats (n : ℕ) (s : Sym) : Eats (pegC funcs n s) := by
  induction n generalizing s with
  | zero => intro cs t r h; simp [pegC] at h
  | succ n ih => rw [pegC_succ]; exact lv_eats ih n s

/-- Two parsers agree on inputs shorter than `N`. -/
def AgreeLt (N : ℕ) (p q : PC) : Prop := ∀ cs, cs.length < N → p cs = q cs

theorem pmanyC_congr {p q : PC} (hp : Eats p) {o : List Char} (ho : o ≠ []) {po : POp} : ∀ (N k k' : ℕ) (cs : List Char), cs.length ≤ N →
    cs.length ≤ k → cs.length ≤ k' → AgreeLt N p q → pmanyC p o po k cs = pmanyC q o po k' cs := by
  intro N k
  induction k with
  | zero =>
    intro k' cs _ hk _ _
    have : cs = [] := List.length_eq_zero_iff.1 (by omega)
    subst this
    have hl : litC o [] = none := by
      rcases h : litC o [] with _ | r
      · rfl
      · have := litC_length ho h; simp at this
    cases k' <;> simp [pmanyC, hl]
  | succ k ih =>
    intro k' cs hN hk hk' ha
    cases k' with
    | zero =>
      have : cs = [] := List.length_eq_zero_iff.1 (by omega)
      subst this
      have hl : litC o [] = none := by
        rcases h : litC o [] with _ | r
        · rfl
        · have := litC_length ho h; simp at this
      simp [pmanyC, hl]
    | succ k' =>
      unfold pmanyC
      rcases h : litC o cs with _ | r
      · rfl
      · have l1 := litC_length ho h
        simp only
        rw [← ha r (by omega)]
        rcases h' : p r with _ | ⟨e, r'⟩
        · rfl
        · have l2 := hp _ _ _ h'
          simp only
          rw [ih k' r' (by omega) (by omega) (by omega) ha]

theorem pitemsC_congr {p q p' q' : PC} (hp : Eats p) (hq : Eats q) : ∀ (N k k' : ℕ) (cs : List Char), cs.length < N →
    cs.length ≤ k → cs.length ≤ k' → AgreeLt N p p' → AgreeLt N q q' → (∀ cs, cs = [] → p cs = none ∧ q cs = none) →
    pitemsC p q k cs = pitemsC p' q' k' cs := by
  intro N k
  induction k with
  | zero =>
    intro k' cs hN hk _ h1 h2 hn
    have : cs = [] := List.length_eq_zero_iff.1 (by omega)
    subst this
    cases k' with
    | zero => rfl
    | succ k' => simp [pitemsC, ← h1 [] hN, ← h2 [] hN, hn [] rfl]
  | succ k ih =>
    intro k' cs hN hk hk' h1 h2 hn
    cases k' with
    | zero =>
      have : cs = [] := List.length_eq_zero_iff.1 (by omega)
      subst this
      simp [pitemsC, hn [] rfl]
    | succ k' =>
      unfold pitemsC
      rw [← h1 cs hN, ← h2 cs hN]
      rcases h : p cs with _ | ⟨e, r⟩
      · rcases h' : q cs with _ | ⟨e, r⟩
        · rfl
        · have := hq _ _ _ h'
          simp only
          rw [ih k' r (by omega) (by omega) (by omega) h1 h2 hn]
      · have := hp _ _ _ h
        simp only
        rw [ih k' r (by omega) (by omega) (by omega) h1 h2 hn]

theorem eats_nil {p : PC} (hp : Eats p) (cs : List Char) (h : cs = []) : p cs = none := by
  rcases h' : p cs with _ | ⟨t, r⟩
  · rfl
  · have := hp _ _ _ h'; subst h; simp at this

theorem pbinC_congr {f f' p q : PC} (hf : Eats f) (hp : Eats p) {o : List Char} (ho : o ≠ []) {po : POp} {n n' : ℕ} {cs : List Char} (h1 : f cs = f' cs)
    (hn : cs.length ≤ n) (hn' : cs.length ≤ n') (ha : AgreeLt cs.length p q) : pbinC f p o po n cs = pbinC f' q o po n' cs := by
  unfold pbinC
  rw [← h1]
  rcases h : f cs with _ | ⟨e, r⟩
  · rfl
  · have := hf _ _ _ h
    simp only
    rw [pmanyC_congr hp ho cs.length n n' r (by omega) (by omega) (by omega) ha]

theorem pnestedC_congr {p q p' q' : PC} (hp : Eats p) (hq : Eats q) {n n' : ℕ} {cs : List Char} (hn : cs.length ≤ n) (hn' : cs.length ≤ n')
    (h1 : AgreeLt cs.length p p') (h2 : AgreeLt cs.length q q') : pnestedC p q n cs = pnestedC p' q' n' cs := by
  unfold pnestedC
  rcases h : litC ['('] cs with _ | r
  · rfl
  · have := litC_length (by simp) h
    simp only
    rw [pitemsC_congr hp hq cs.length n n' r (by omega) (by omega) (by omega) h1 h2 (fun cs e => ⟨eats_nil hp cs e, eats_nil hq cs e⟩)]

theorem patomC_congr {p q p' q' : PC} (hp : Eats p) (hq : Eats q) {n n' : ℕ} {cs : List Char} (hn : cs.length ≤ n) (hn' : cs.length ≤ n')
    (h1 : AgreeLt cs.length p p') (h2 : AgreeLt cs.length q q') : patomC funcs p q n cs = patomC funcs p' q' n' cs := by
  unfold patomC
  rw [pnestedC_congr hp hq hn hn' h1 h2]
  rcases hf : fnC funcs cs with _ | ⟨f, r⟩ <;> rcases hl : litC ['('] cs with _ | r1 <;> simp only
  · rw [h2 r1 (by have := litC_length (by simp) hl; omega)]
  · rw [h1 r (by have := (fnC_sound hf).2.length_le; simp at this; omega)]
  · rw [h1 r (by have := (fnC_sound hf).2.length_le; simp at this; omega), h2 r1 (by have := litC_length (by simp) hl; omega)]

theorem punaryC_congr {p p' a a' : PC} {cs : List Char} (h1 : AgreeLt cs.length p p') (h2 : a cs = a' cs) : punaryC p a cs = punaryC p' a' cs := by
  unfold punaryC
  rw [h2]
  rcases hl : litC ['-'] cs with _ | r1 <;> simp only
  rw [h1 r1 (by have := litC_length (by simp) hl; omega)]

theorem lv_congr {R R' : Sym → PC} (hR : ∀ s, Eats (R s)) {n n' : ℕ} {cs : List Char} (hn : cs.length ≤ n) (hn' : cs.length ≤ n')
    (h : ∀ s, AgreeLt cs.length (R s) (R' s)) (s : Sym) : lv funcs R n s cs = lv funcs R' n' s cs := by
  have h0 : lv0 funcs R n cs = lv0 funcs R' n' cs := patomC_congr (hR _) (hR _) hn hn' (h _) (h _)
  have h1 : lv1 funcs R n cs = lv1 funcs R' n' cs := punaryC_congr (h _) h0
  have h2 : lv2 funcs R n cs = lv2 funcs R' n' cs := pbinC_congr (lv_eats hR n (.lvl 1)) (hR _) (by simp) h1 hn hn' (h _)
  have h3 : lv3 funcs R n cs = lv3 funcs R' n' cs := pbinC_congr (lv_eats hR n (.lvl 2)) (hR _) (by simp) h2 hn hn' (h _)
  have h4 : lv4 funcs R n cs = lv4 funcs R' n' cs := pbinC_congr (lv_eats hR n (.lvl 3)) (hR _) (by simp) h3 hn hn' (h _)
  have h5 : lv5 funcs R n cs = lv5 funcs R' n' cs := pbinC_congr (lv_eats hR n (.lvl 4)) (hR _) (by simp) h4 hn hn' (h _)
  match s with
  | .nested => exact pnestedC_congr (hR _) (hR _) hn hn' (h _) (h _)
  | .lvl 0 => exact h0
  | .lvl 1 => exact h1
  | .lvl 2 => exact h2
  | .lvl 3 => exact h3
  | .lvl 4 => exact h4
  | .lvl 5 => exact h5
  | .lvl (k + 6) => exact pbinC_congr (lv_eats hR n (.lvl 5)) (hR _) (by simp) h5 hn hn' (h _)

/-- The bound on the recursion does not matter once it exceeds the length of the text. -/
theorem pegC_fuel (n m : ℕ) (s : Sym) (cs : List Char) (hn : cs.length < n) (hm : cs.length < m) : pegC funcs n s cs = pegC funcs m s cs := by
  induction n generalizing m s cs with
  | zero => omega
  | succ n ih =>
    cases m with
    | zero => omega
    | succ m =>
      rw [pegC_succ, pegC_succ]
      exact lv_congr (fun s => pegC_eats n s) (by omega) (by omega) (fun s cs' h => ih m s cs' (by omega) (by omega)) s

end Fossil

/- Facts about the text-level parser: blanks, literals, numerals. -/
import Verif.Text
import Verif.Spec.Text
import Mathlib.Tactic

namespace Fossil
open Spec

theorem isWs_iff {c : Char} : isWs c = true ↔ c = ' ' ∨ c = '\t' ∨ c = '\n' ∨ c = '\r' := by
  simp [isWs, or_assoc]

theorem isNum_iff {c : Char} : isNum c = true ↔ '0' ≤ c ∧ c ≤ '9' := by
  simp [isNum]

theorem isNum_not_ws {c : Char} (h : isNum c = true) : isWs c = false := by
  rw [Bool.eq_false_iff]
  intro hw
  rw [isNum_iff] at h
  rcases isWs_iff.1 hw with rfl | rfl | rfl | rfl <;> exact absurd h.1 (by decide)

theorem skipWs_blank {w : List Char} (h : Blank w) (s : List Char) : skipWs (w ++ s) = skipWs s := by
  unfold skipWs
  induction w with
  | nil => rfl
  | cons c w ih =>
    have hc : isWs c = true := isWs_iff.2 (h c (by simp))
    rw [List.cons_append, List.dropWhile_cons_of_pos hc]
    exact ih fun x hx => h x (by simp [hx])

theorem skipWs_nil_of_blank {w : List Char} (h : Blank w) : skipWs w = [] := by
  have := skipWs_blank h []
  simpa [skipWs] using this

theorem skipWs_of_head {s : List Char} (h : ∀ c, s.head? = some c → isWs c = false) : skipWs s = s := by
  cases s with
  | nil => rfl
  | cons c s => exact List.dropWhile_cons_of_neg (by simp [h c rfl])

/-- A text whose first character (if any) satisfies `P`. -/
def HeadIs (P : Char → Prop) (s : List Char) : Prop := ∀ c, s.head? = some c → P c

theorem litC_match {w t s : List Char} (hw : Blank w) (ht : t ≠ []) (hh : HeadIs (fun c => isWs c = false) t) :
    litC t (w ++ t ++ s) = some s := by
  unfold litC
  rw [List.append_assoc, skipWs_blank hw, skipWs_of_head]
  · simp [List.isPrefixOf?_eq_some_iff_append_eq]
  · intro c hc
    cases t with
    | nil => exact absurd rfl ht
    | cons d t => exact hh c (by simpa using hc)

theorem litC_one_none {w s : List Char} {a : Char} (hw : Blank w) (hs : HeadIs (fun c => isWs c = false ∧ c ≠ a) s) :
    litC [a] (w ++ s) = none := by
  unfold litC
  rw [skipWs_blank hw, skipWs_of_head fun c hc => (hs c hc).1]
  cases s with
  | nil => rfl
  | cons c s =>
    have := (hs c rfl).2
    simp [List.isPrefixOf?, Ne.symm this]

theorem natVal_eq (d : List Char) : natVal d = digitsValue d := by
  unfold natVal digitsValue
  induction d using List.reverseRecOn with
  | nil => rfl
  | append_singleton d c ih =>
    rw [List.foldl_append, ih]
    simp only [List.foldl_cons, List.foldl_nil, List.reverse_append, List.reverse_cons, List.reverse_nil, List.nil_append, List.cons_append,
      List.map_cons, Nat.ofDigits_cons]
    rw [show '0'.toNat = 48 from rfl]
    push_cast
    ring

theorem takeWhile_digits {d s : List Char} (hd : ∀ c ∈ d, isNum c = true) (hs : HeadIs (fun c => isNum c = false) s) :
    (d ++ s).takeWhile isNum = d ∧ (d ++ s).dropWhile isNum = s := by
  induction d with
  | nil =>
    cases s with
    | nil => exact ⟨rfl, rfl⟩
    | cons c s => simp [hs c rfl]
  | cons c d ih =>
    have := ih fun x hx => hd x (by simp [hx])
    simp [hd c (by simp), this]

theorem digits_isNum {d : List Char} (h : Digits d) : ∀ c ∈ d, isNum c = true := fun c hc => isNum_iff.2 (h.2 c hc)

theorem wordNums_match {d s : List Char} (hd : Digits d) (hs : HeadIs (fun c => isNum c = false) s) :
    wordNums (d ++ s) = some (d, s) := by
  obtain ⟨h1, h2⟩ := takeWhile_digits (digits_isNum hd) hs
  unfold wordNums
  rw [h1, h2]
  cases d with
  | nil => exact absurd rfl hd.1
  | cons c d => rfl

theorem wordNums_none {s : List Char} (hs : HeadIs (fun c => isNum c = false) s) : wordNums s = none := by
  unfold wordNums
  cases s with
  | nil => rfl
  | cons c s => simp [hs c rfl]

/-- What may follow a numeral. -/
def EndsNum (s : List Char) : Prop := HeadIs (fun c => isNum c = false ∧ c ≠ '.') s

theorem number_match {t s : List Char} {q : ℚ} (ht : Numeral t q) (hs : EndsNum s) :
    (match decimalC (t ++ s) with
     | some m => some m
     | none => integerC (t ++ s)) = some (q, s) := by
  have hs1 : HeadIs (fun c => isNum c = false) s := fun c hc => (hs c hc).1
  cases ht with
  | int h =>
    have h1 := wordNums_match h hs1
    have h2 : decimalC (t ++ s) = none := by
      unfold decimalC
      rw [h1]
      cases s with
      | nil => rfl
      | cons c s =>
        have := (hs c rfl).2
        split
        · rename_i heq
          simp only [Option.some.injEq, Prod.mk.injEq, List.cons.injEq] at heq
          exact absurd heq.2.1 this
        · rfl
    rw [h2]
    simp only [integerC, h1, natVal_eq]
  | @dec a b ha hb =>
    have h1 : wordNums (a ++ '.' :: (b ++ s)) = some (a, '.' :: (b ++ s)) :=
      wordNums_match ha fun c hc => by simp at hc; subst hc; decide
    have h2 := wordNums_match hb hs1
    simp only [List.append_assoc, List.cons_append, decimalC, h1, h2, natVal_eq]

theorem numeral_head {t : List Char} {q : ℚ} (h : Numeral t q) : ∃ c r, t = c :: r ∧ isNum c = true := by
  have aux : ∀ d : List Char, Digits d → ∃ c r, d = c :: r ∧ isNum c = true := by
    intro d hd
    cases d with
    | nil => exact absurd rfl hd.1
    | cons c d => exact ⟨c, d, rfl, digits_isNum hd c (by simp)⟩
  cases h with
  | int h => exact aux _ h
  | dec ha hb =>
    obtain ⟨c, r, rfl, hc⟩ := aux _ ha
    exact ⟨c, _, rfl, hc⟩

theorem numberC_match {w t s : List Char} {q : ℚ} (hw : Blank w) (ht : Numeral t q) (hs : EndsNum s) :
    numberC (w ++ t ++ s) = some (q, s) := by
  obtain ⟨c, r, hc, hc'⟩ := numeral_head ht
  unfold numberC
  rw [List.append_assoc, skipWs_blank hw, skipWs_of_head]
  · exact number_match ht hs
  · intro c' h
    rw [hc] at h
    simp at h
    rw [← h]
    exact isNum_not_ws hc'

theorem numberC_none {w s : List Char} (hw : Blank w) (hs : HeadIs (fun c => isWs c = false ∧ isNum c = false) s) : numberC (w ++ s) = none := by
  unfold numberC
  rw [skipWs_blank hw, skipWs_of_head fun c hc => (hs c hc).1]
  have h := wordNums_none (s := s) fun c hc => (hs c hc).2
  simp [decimalC, integerC, h]

theorem signedC_match {w t s : List Char} {q : ℚ} (hw : Blank w) (ht : SignedNumeral t q) (hs : EndsNum s) :
    signedC (w ++ t ++ s) = some (q, s) := by
  unfold signedC
  rw [List.append_assoc, skipWs_blank hw]
  cases ht with
  | none h =>
    have hm := number_match h hs
    obtain ⟨c, r, rfl, hc'⟩ := numeral_head h
    rw [skipWs_of_head (by intro c' h; simp at h; rw [← h]; exact isNum_not_ws hc')]
    simp only [List.cons_append] at hm ⊢
    split
    · rename_i heq; simp at heq; rw [heq.1] at hc'; exact absurd hc' (by decide)
    · rename_i heq; simp at heq; rw [heq.1] at hc'; exact absurd hc' (by decide)
    · exact hm
  | plus h =>
    rw [skipWs_of_head (by intro c' h; simp at h; rw [← h]; decide)]
    exact number_match h hs
  | minus h =>
    rw [skipWs_of_head (by intro c' h; simp at h; rw [← h]; decide)]
    rename_i cs q
    have hm := number_match h hs
    simp only [List.cons_append]
    cases hd : decimalC (cs ++ s) with
    | some m => rw [hd] at hm; cases hm; rfl
    | none =>
      rw [hd] at hm
      simp only [Option.map_none]
      simp only at hm
      rw [hm]; rfl

theorem signedC_none {w s : List Char} (hw : Blank w)
    (hs : HeadIs (fun c => isWs c = false ∧ isNum c = false ∧ c ≠ '+' ∧ c ≠ '-') s) : signedC (w ++ s) = none := by
  unfold signedC
  rw [skipWs_blank hw, skipWs_of_head fun c hc => (hs c hc).1]
  have h := wordNums_none (s := s) fun c hc => (hs c hc).2.1
  split
  · exact absurd rfl (hs _ rfl).2.2.2
  · exact absurd rfl (hs _ rfl).2.2.1
  · simp [decimalC, integerC, h]

end Fossil

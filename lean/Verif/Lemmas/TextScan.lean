/- What the character parser consumes: tokens written out with blanks. -/
import Verif.Lemmas.TextParse
import Mathlib.Data.List.TakeWhile

namespace Fossil
open Spec

/-- `s` starts with the tokens, written out with blanks, and goes on with `r`. -/
inductive Pre : List Tok → List Char → List Char → Prop
  | nil (s) : Pre [] s s
  | cons {w t txt ts s r} (hw : Blank w) (ht : TokText t txt) (h : Pre ts s r) : Pre (t :: ts) (w ++ txt ++ s) r

theorem Pre.append {a b x y z} (h : Pre a x y) (h' : Pre b y z) : Pre (a ++ b) x z := by
  induction h with
  | nil => exact h'
  | cons hw ht _ ih => exact .cons hw ht (ih h')

theorem Pre.one {w t txt s} (hw : Blank w) (ht : TokText t txt) : Pre [t] (w ++ txt ++ s) s := .cons hw ht (.nil _)

theorem tokText_ne {t txt} (h : TokText t txt) : txt ≠ [] := by
  obtain ⟨c, r, rfl, -⟩ := tok_head h
  simp

theorem Pre.length_le {ts s r} (h : Pre ts s r) : ts.length + r.length ≤ s.length := by
  induction h with
  | nil => simp
  | cons hw ht _ ih =>
    have := List.length_pos_iff.2 (tokText_ne ht)
    simp only [List.length_append, List.length_cons]
    omega

theorem skipWs_spec (cs : List Char) : ∃ w, Blank w ∧ cs = w ++ skipWs cs := by
  refine ⟨cs.takeWhile isWs, fun c hc => isWs_iff.1 ?_, (List.takeWhile_append_dropWhile).symm⟩
  exact (List.mem_takeWhile_imp hc)

theorem litC_sound {txt cs r : List Char} (h : litC txt cs = some r) : ∃ w, Blank w ∧ cs = w ++ txt ++ r := by
  obtain ⟨w, hw, e⟩ := skipWs_spec cs
  unfold litC at h
  rw [List.isPrefixOf?_eq_some_iff_append_eq] at h
  exact ⟨w, hw, by rw [List.append_assoc, h]; exact e⟩

theorem wordNums_sound {cs d r : List Char} (h : wordNums cs = some (d, r)) : Digits d ∧ cs = d ++ r := by
  unfold wordNums at h
  split at h
  · cases h
  · rename_i hd
    simp only [Option.some.injEq, Prod.mk.injEq] at h
    obtain ⟨rfl, rfl⟩ := h
    refine ⟨⟨fun e => hd e, fun c hc => isNum_iff.1 (List.mem_takeWhile_imp hc)⟩, List.takeWhile_append_dropWhile.symm⟩

theorem numeral_sound {cs r : List Char} {q : ℚ} (h : decimalC cs = some (q, r) ∨ integerC cs = some (q, r)) : ∃ t, Numeral t q ∧ cs = t ++ r := by
  rcases h with h | h
  · unfold decimalC at h
    split at h
    · rename_i a r1 h1
      obtain ⟨ha, rfl⟩ := wordNums_sound h1
      split at h
      · rename_i b r2 h2
        obtain ⟨hb, rfl⟩ := wordNums_sound h2
        cases h
        refine ⟨a ++ '.' :: b, ?_, by simp⟩
        rw [natVal_eq, natVal_eq]
        exact .dec ha hb
      · cases h
    · cases h
  · unfold integerC at h
    split at h
    · rename_i a r1 h1
      obtain ⟨ha, rfl⟩ := wordNums_sound h1
      cases h
      refine ⟨a, ?_, rfl⟩
      rw [natVal_eq]
      exact .int ha
    · cases h

theorem numberC_sound {cs r : List Char} {q : ℚ} (h : numberC cs = some (q, r)) : Pre [.num q] cs r := by
  obtain ⟨w, hw, e⟩ := skipWs_spec cs
  unfold numberC at h
  have : decimalC (skipWs cs) = some (q, r) ∨ integerC (skipWs cs) = some (q, r) := by
    split at h
    · left; rename_i m hm; rw [hm, h]
    · exact .inr h
  obtain ⟨t, ht, e'⟩ := numeral_sound this
  rw [e, e', ← List.append_assoc]
  exact .one hw (.num ht)

theorem varC_sound {v : Char} {cs r : List Char} {i : ℕ} (h : varC v cs = some (i, r)) :
    ∃ w d, Blank w ∧ Index d ∧ i = digitsValue d ∧ cs = w ++ (v :: d) ++ r := by
  obtain ⟨w, hw, e⟩ := skipWs_spec cs
  unfold varC at h
  split at h
  · rename_i c r1 h1
    by_cases hv : c = v
    · rw [if_pos hv] at h
      subst hv
      split at h
      · cases h
      · cases h
      · rename_i hn1 hn2
        simp only [Option.some.injEq, Prod.mk.injEq] at h
        obtain ⟨rfl, rfl⟩ := h
        refine ⟨w, r1.takeWhile isNum, hw, ⟨⟨fun e => hn1 e, fun c hc => isNum_iff.1 (List.mem_takeWhile_imp hc)⟩, ?_⟩, natVal_eq _, ?_⟩
        · rcases hd : r1.takeWhile isNum with _ | ⟨a, _ | ⟨b, l⟩⟩
          · exact absurd hd hn1
          · simp
          · right
            intro ha
            simp only [List.head?_cons, Option.some.injEq] at ha
            subst ha
            exact hn2 _ _ hd
        · rw [List.append_assoc, List.cons_append, List.takeWhile_append_dropWhile, ← h1]; exact e
    · rw [if_neg hv] at h; cases h
  · cases h

theorem keywordC_sound {name cs r : List Char} (h : keywordC name cs = some r) : ∃ w, Blank w ∧ cs = w ++ name ++ r := by
  unfold keywordC at h
  split at h
  · rename_i h1; cases h; exact litC_sound h1
  · rename_i h1
    split at h
    · cases h
    · cases h; exact litC_sound h1
  · cases h

theorem fnC_sound {funcs : FName → Bool} {cs r : List Char} {f : FName} (h : fnC funcs cs = some (f, r)) : funcs f = true ∧ Pre [.fn f] cs r := by
  unfold fnC at h
  obtain ⟨g, -, hg⟩ := List.exists_of_findSome?_eq_some h
  by_cases hf : funcs g = true
  · rw [if_pos hf] at hg
    obtain ⟨r', h1, h2⟩ := Option.map_eq_some_iff.1 hg
    cases h2
    obtain ⟨w, hw, rfl⟩ := keywordC_sound h1
    refine ⟨hf, .one hw ?_⟩
    rw [← fnText_name]
    exact .fn _
  · rw [if_neg hf] at hg; cases hg

theorem lit_pre {t : Tok} {txt cs r : List Char} (ht : TokText t txt) (h : litC txt cs = some r) : Pre [t] cs r := by
  obtain ⟨w, hw, rfl⟩ := litC_sound h
  exact .one hw ht

end Fossil

/-
C55: a domain written in a configuration file is the set its text describes.
-/
import Verif.Lemmas.Text
import Verif.Props.C21_Domains

namespace Fossil
open Spec

theorem layout_head {u : List Char} {us : List (List Char)} {s : List Char} (hu : u ≠ []) (h : Layout (u :: us) s) :
    HeadIs (fun c => isWs c = true ∨ u.head? = some c) s := by
  obtain ⟨w, s', hw, rfl, -⟩ := h
  intro c hc
  cases w with
  | nil =>
    cases u with
    | nil => exact absurd rfl hu
    | cons a u => right; simpa using hc
  | cons a w =>
    simp at hc
    subst hc
    exact Or.inl (isWs_iff.2 (hw a (by simp)))

theorem layout_endsNum {u : Char} {us : List (List Char)} {s : List Char} (h : Layout ([u] :: us) s) (h1 : isNum u = false) (h2 : u ≠ '.') :
    EndsNum s := by
  intro c hc
  rcases layout_head (by simp) h c hc with hc | hc
  · refine ⟨Bool.eq_false_iff.2 fun hn => ?_, ?_⟩
    · rw [isNum_not_ws hn] at hc; cases hc
    · rintro rfl; exact absurd hc (by decide)
  · simp at hc; subst hc; exact ⟨h1, h2⟩

theorem layout_lit {a : Char} {us : List (List Char)} {s : List Char} (ha : isWs a = false) (h : Layout ([a] :: us) s) :
    ∃ s', litC [a] s = some s' ∧ Layout us s' := by
  obtain ⟨w, s', hw, rfl, h'⟩ := h
  exact ⟨s', litC_match hw (by simp) (by intro c hc; simp at hc; subst hc; exact ha), h'⟩

theorem layout_lit_none {a b : Char} {us : List (List Char)} {s : List Char} (ha : isWs b = false) (hab : b ≠ a) (h : Layout ([b] :: us) s) :
    litC [a] s = none := by
  obtain ⟨w, s', hw, rfl, h'⟩ := h
  rw [List.append_assoc]
  exact litC_one_none hw (by intro c hc; simp at hc; subst hc; exact ⟨ha, hab⟩)

theorem layout_signed {n : List Char} {q : ℚ} {u : Char} {us : List (List Char)} {s : List Char} (hn : SignedNumeral n q) (hu : isNum u = false)
    (hu' : u ≠ '.') (h : Layout (n :: [u] :: us) s) : ∃ s', signedC s = some (q, s') ∧ Layout ([u] :: us) s' := by
  obtain ⟨w, s', hw, rfl, h'⟩ := h
  exact ⟨s', signedC_match hw hn (layout_endsNum h' hu hu'), h'⟩

theorem layout_signed_none {u : Char} {us : List (List Char)} {s : List Char} (hw : isWs u = false) (hu : isNum u = false)
    (h1 : u ≠ '+') (h2 : u ≠ '-') (h : Layout ([u] :: us) s) : signedC s = none := by
  obtain ⟨w, s', hw', rfl, h'⟩ := h
  rw [List.append_assoc]
  exact signedC_none hw' (by intro c hc; simp at hc; subst hc; exact ⟨hw, hu, h1, h2⟩)

theorem delimTail_match {ns : List (List Char)} {qs : List ℚ} (hq : List.Forall₂ SignedNumeral ns qs) (rest : List (List Char)) :
    ∀ (k : ℕ) (s : List Char), ns.length ≤ k → Layout (ns.flatMap (fun m => [[','], m]) ++ [']'] :: rest) s →
      ∃ s', delimTail k s = (qs.map .num, s') ∧ Layout ([']'] :: rest) s' := by
  induction hq with
  | nil =>
    intro k s _ h
    refine ⟨s, ?_, h⟩
    cases k with
    | zero => rfl
    | succ k => simp [delimTail, layout_lit_none (a := ',') (b := ']') (by decide) (by decide) h]
  | @cons n q ns qs hn hq ih =>
    intro k s hk h
    cases k with
    | zero => simp at hk
    | succ k =>
      obtain ⟨s1, h1, h⟩ := layout_lit (a := ',') (by decide) h
      have key : ∃ s2, signedC s1 = some (q, s2) ∧ Layout (ns.flatMap (fun m => [[','], m]) ++ [']'] :: rest) s2 := by
        cases ns with
        | nil => exact layout_signed hn (by decide) (by decide) h
        | cons m ns => exact layout_signed hn (by decide) (by decide) h
      obtain ⟨s2, h2, h⟩ := key
      obtain ⟨s3, h3, h⟩ := ih k s2 (by simpa using hk) h
      refine ⟨s3, ?_, h⟩
      simp only [delimTail, h1, h2, h3, List.map_cons]

theorem numList_match {ns : List (List Char)} {qs : List ℚ} (hq : List.Forall₂ SignedNumeral ns qs) (rest : List (List Char)) (n : ℕ) (s : List Char)
    (hn : ns.length + 2 ≤ n) (h : Layout (listText ns ++ rest) s) :
    ∃ s', numList n s = some (.list (qs.map .num), s') ∧ Layout rest s' := by
  obtain ⟨n, rfl⟩ : ∃ m, n = m + 2 := ⟨n - 2, by omega⟩
  unfold listText at h
  simp only [List.append_assoc, List.cons_append, List.nil_append] at h
  obtain ⟨s1, h1, h⟩ := layout_lit (a := '[') (by decide) h
  unfold numList
  rw [dnested, h1]
  simp only
  have nested_none : ∀ {u : Char} {us : List (List Char)} {s : List Char} (k : ℕ), isWs u = false → u ≠ '[' → Layout ([u] :: us) s →
      dnested '[' ']' (delimC (n + 2)) k s = none := by
    intro u us s k hu hu' h
    cases k with
    | zero => rfl
    | succ k => rw [dnested, layout_lit_none hu hu' h]
  have stop : ∀ {s : List Char} (k : ℕ), Layout ([']'] :: rest) s →
      ditems (dnested '[' ']' (delimC (n + 2)) (n + 1)) (delimC (n + 2)) k s = ([], s) := by
    intro s k h
    cases k with
    | zero => rfl
    | succ k =>
      rw [ditems, nested_none _ (by decide) (by decide) h]
      simp only [delimC, layout_signed_none (by decide) (by decide) (by decide) (by decide) h]
  cases hq with
  | nil =>
    simp only [commaSep, List.nil_append] at h
    rw [stop _ h]
    obtain ⟨s2, h2, h⟩ := layout_lit (a := ']') (by decide) h
    exact ⟨s2, by simp [h2], h⟩
  | @cons m q ns qs hm hq =>
    simp only [commaSep, List.cons_append] at h
    rw [ditems]
    have hnone : dnested '[' ']' (delimC (n + 2)) (n + 1) s1 = none := by
      rw [dnested]
      obtain ⟨w, s', hw, rfl, -⟩ := h
      have : litC ['['] (w ++ m ++ s') = none := by
        rw [List.append_assoc]
        refine litC_one_none hw ?_
        intro c hc
        cases hm with
        | none h =>
          obtain ⟨c', r, rfl, hc'⟩ := numeral_head h
          simp at hc; subst hc
          exact ⟨isNum_not_ws hc', by rintro rfl; exact absurd hc' (by decide)⟩
        | plus h => simp at hc; subst hc; decide
        | minus h => simp at hc; subst hc; decide
      rw [this]
    have key : ∃ s2, signedC s1 = some (q, s2) ∧ Layout (ns.flatMap (fun m => [[','], m]) ++ [']'] :: rest) s2 := by
      cases ns with
      | nil => exact layout_signed hm (by decide) (by decide) h
      | cons m ns => exact layout_signed hm (by decide) (by decide) h
    obtain ⟨s2, h2, h⟩ := key
    obtain ⟨s3, h3, h⟩ := delimTail_match hq rest (n + 2) s2 (by simp at hn; omega) h
    have hc : delimC (n + 2) s1 = some (.num q :: qs.map .num, s3) := by simp only [delimC, h2, h3]
    rw [hnone, hc]
    simp only
    rw [stop _ h]
    obtain ⟨s4, h4, h⟩ := layout_lit (a := ']') (by decide) h
    exact ⟨s4, by simp [h4], h⟩

theorem vec_nums (qs : List ℚ) : (DTree.list (qs.map .num)).vec = .ok qs := by
  unfold DTree.vec
  induction qs with
  | nil => rfl
  | cons q qs ih => simp only [List.map_cons, List.mapM_cons, ih]; rfl

/-- A bracketed input that is read once. -/
theorem paren_match {input : List Char → Option (List DTree × List Char)} {t : DTree} {toks rest : List (List Char)} {s : List Char} {n : ℕ}
    (hn : 2 ≤ n) (hin : ∀ s, Layout (toks ++ [')'] :: rest) s → ∃ s', input s = some ([t], s') ∧ Layout ([')'] :: rest) s')
    (hno : ∀ s, Layout ([')'] :: rest) s → input s = none)
    (hfirst : ∀ s, Layout (toks ++ [')'] :: rest) s → litC ['('] s = none)
    (h : Layout (['('] :: toks ++ [')'] :: rest) s) : ∃ s', dnested '(' ')' input n s = some (.list [t], s') ∧ Layout rest s' := by
  obtain ⟨n, rfl⟩ : ∃ m, n = m + 2 := ⟨n - 2, by omega⟩
  obtain ⟨s1, h1, h⟩ := layout_lit (a := '(') (by decide) h
  rw [dnested, h1]
  simp only
  have nn : ∀ (k : ℕ) (s : List Char), litC ['('] s = none → dnested '(' ')' input k s = none := by
    intro k s h
    cases k with
    | zero => rfl
    | succ k => rw [dnested, h]
  obtain ⟨s2, h2, h3⟩ := hin s1 h
  rw [ditems, nn _ _ (hfirst s1 h), h2]
  simp only
  have stop : ditems (dnested '(' ')' input (n + 1)) input n s2 = ([], s2) := by
    cases n with
    | zero => rfl
    | succ n => rw [ditems, nn _ _ (layout_lit_none (by decide) (by decide) h3), hno s2 h3]
  rw [stop]
  obtain ⟨s4, h4, h⟩ := layout_lit (a := ')') (by decide) h3
  exact ⟨s4, by simp [h4], h⟩

theorem keyword_match {name : List Char} {us : List (List Char)} {s : List Char} {u : Char} (hne : name ≠ []) (hh : HeadIs (fun c => isWs c = false) name)
    (hu : isIdent u = false) (h : Layout (name :: [u] :: us) s) : ∃ s', keywordC name s = some s' ∧ Layout ([u] :: us) s' := by
  obtain ⟨w, s', hw, rfl, h'⟩ := h
  refine ⟨s', ?_, h'⟩
  unfold keywordC
  rw [litC_match hw hne hh]
  cases s' with
  | nil => rfl
  | cons c s' =>
    have : isIdent c = false := by
      rcases layout_head (by simp) h' c rfl with hc | hc
      · rcases isWs_iff.1 hc with rfl | rfl | rfl | rfl <;> decide
      · simp at hc; subst hc; exact hu
    simp [this]

theorem keyword_none {name name' : List Char} {us : List (List Char)} {s : List Char} (hh : HeadIs (fun c => isWs c = false) name') (hne : name' ≠ [])
    (hpre : ∀ r, name.isPrefixOf? (name' ++ r) = none) (h : Layout (name' :: us) s) : keywordC name s = none := by
  obtain ⟨w, s', hw, rfl, h'⟩ := h
  unfold keywordC litC
  rw [List.append_assoc, skipWs_blank hw, skipWs_of_head, hpre]
  intro c hc
  cases name' with
  | nil => exact absurd rfl hne
  | cons d t => exact hh c (by simpa using hc)

theorem layout_length {ts : List (List Char)} {s : List Char} (h : Layout ts s) : (ts.map List.length).sum ≤ s.length := by
  induction ts generalizing s with
  | nil => simp
  | cons t ts ih =>
    obtain ⟨w, s', hw, rfl, h'⟩ := h
    have := ih h'
    simp only [List.map_cons, List.sum_cons, List.length_append]
    omega

theorem signed_length {n : List Char} {q : ℚ} (h : SignedNumeral n q) : 1 ≤ n.length := by
  cases h with
  | none h => obtain ⟨c, r, rfl, -⟩ := numeral_head h; simp
  | plus h => simp
  | minus h => simp

theorem sum_signed {ns : List (List Char)} {qs : List ℚ} (h : List.Forall₂ SignedNumeral ns qs) :
    ns.length ≤ ((commaSep ns).map List.length).sum := by
  have aux : ∀ {ns : List (List Char)} {qs : List ℚ}, List.Forall₂ SignedNumeral ns qs →
      ns.length ≤ ((ns.flatMap (fun m => [[','], m])).map List.length).sum := by
    intro ns qs h
    induction h with
    | nil => simp
    | cons h1 _ ih =>
      simp only [List.flatMap_cons, List.length_cons, List.map_append, List.map_cons, List.map_nil, List.sum_append, List.sum_cons, List.sum_nil,
        List.length_nil]
      omega
  cases h with
  | nil => simp [commaSep]
  | cons h1 h2 =>
    have := aux h2
    have := signed_length h1
    simp only [commaSep, List.length_cons, List.map_cons, List.sum_cons]
    omega

theorem layout_blank_end {s : List Char} (h : Layout [] s) : skipWs s = [] := skipWs_nil_of_blank h

theorem numList_none {u : Char} {us : List (List Char)} {s : List Char} (hw : isWs u = false) (hu : u ≠ '[') (h : Layout ([u] :: us) s) (n : ℕ) :
    numList n s = none := by
  cases n with
  | zero => rfl
  | succ n => simp only [numList, dnested, layout_lit_none (a := '[') hw hu h]

/-- Reading one alternative whose keyword is there. -/
theorem alt_match {name : List Char} {input : ℕ → List Char → Option (List DTree × List Char)} {make : List DTree → Option (Except Err PySet)}
    {l : List DTree} {D : Except Err PySet} {toks : List (List Char)} {s : List Char} {n : ℕ} (hname : name ≠ [])
    (hh : HeadIs (fun c => isWs c = false) name) (hn : 2 ≤ n)
    (hin : ∀ s, Layout (toks ++ [[')']]) s → ∃ s', input n s = some ([.list l], s') ∧ Layout [[')']] s')
    (hno : ∀ s, Layout [[')']] s → input n s = none) (hfirst : ∀ s, Layout (toks ++ [[')']]) s → litC ['('] s = none)
    (hmake : make l = some D) (h : Layout (name :: ['('] :: toks ++ [[')']]) s) :
    ∃ s', domainAlt name input make n s = some (D, s') ∧ skipWs s' = [] := by
  obtain ⟨s1, k1, h⟩ := keyword_match hname hh (by decide) h
  obtain ⟨s2, hp, he⟩ := paren_match (input := input n) (t := .list l) (rest := []) (n := n) hn hin hno hfirst h
  refine ⟨s2, ?_, layout_blank_end he⟩
  simp only [domainAlt, k1, hp, firstItem, hmake, Option.bind_eq_bind, Option.bind_some]
  rfl

theorem listText_first {ns : List (List Char)} {rest : List (List Char)} (s : List Char) (h : Layout (listText ns ++ rest) s) :
    litC ['('] s = none := by
  unfold listText at h
  simp only [List.append_assoc, List.cons_append, List.nil_append] at h
  exact layout_lit_none (by decide) (by decide) h

/-- C55. The text of a rectangle — keyword, brackets, commas, decimal numerals with optional sign, blanks anywhere between them — is parsed to
exactly that rectangle. -/
theorem C55_rectangle_text (lb ub : List (List Char)) (l u : List ℚ) (hl : List.Forall₂ SignedNumeral lb l) (hu : List.Forall₂ SignedNumeral ub u)
    (s : String) (hs : Layout (rectangleText lb ub) s.toList) : parseDomain s = .ok (.rectangle l u none) := by
  have hlen := layout_length hs
  have h1 := sum_signed hl
  have h2 := sum_signed hu
  unfold rectangleText listText at hlen
  simp only [List.map_append, List.sum_append, List.map_cons, List.sum_cons, List.map_nil, List.sum_nil, List.length_cons, List.length_nil] at hlen
  unfold rectangleText at hs
  simp only [List.append_assoc, List.cons_append, List.nil_append] at hs
  have hb : domainAlt "Sphere".toList sphereInput makeSphere (s.toList.length + 1) s.toList = none := by
    have hk0 : keywordC "Sphere".toList s.toList = none :=
      keyword_none (name' := "Rectangle".toList) (by intro c hc; simp at hc; subst hc; decide) (by decide) (fun r => rfl) hs
    simp only [domainAlt, hk0]; rfl
  unfold parseDomain
  simp only [hb]
  generalize hn : s.toList.length + 1 = n
  obtain ⟨s2, ha, he⟩ := alt_match (name := "Rectangle".toList) (input := rectangleInput) (make := makeRectangle)
    (l := [.list (l.map .num), .list (u.map .num)]) (D := .ok (.rectangle l u none))
    (toks := listText lb ++ [','] :: listText ub) (n := n) (s := s.toList) (by decide) (by intro c hc; simp at hc; subst hc; decide) (by omega)
    (fun s h => by
      simp only [List.append_assoc, List.cons_append] at h
      obtain ⟨a1, e1, h⟩ := numList_match hl _ n s (by omega) h
      obtain ⟨a2, e2, h⟩ := layout_lit (a := ',') (by decide) h
      obtain ⟨a3, e3, h⟩ := numList_match hu _ n a2 (by omega) h
      refine ⟨a3, ?_, h⟩
      simp only [rectangleInput, e1, e2, e3, Option.bind_eq_bind, Option.bind_some]
      rfl)
    (fun s h => by simp only [rectangleInput, numList_none (by decide) (by decide) h]; rfl)
    (fun s h => by simp only [List.append_assoc] at h; exact listText_first s h)
    (by simp only [makeRectangle, vec_nums]; rfl) (by simpa using hs)
  simp only [ha]
  simp [he]

/-- C55, spheres. -/
theorem C55_sphere_text (cs : List (List Char)) (r : List Char) (c : List ℚ) (q : ℚ) (hc : List.Forall₂ SignedNumeral cs c) (hr : SignedNumeral r q)
    (s : String) (hs : Layout (sphereText cs r) s.toList) : parseDomain s = .ok (.sphere c q none) := by
  have hlen := layout_length hs
  have h1 := sum_signed hc
  unfold sphereText listText at hlen
  simp only [List.map_append, List.sum_append, List.map_cons, List.sum_cons, List.map_nil, List.sum_nil, List.length_cons, List.length_nil] at hlen
  unfold sphereText at hs
  simp only [List.cons_append, List.nil_append] at hs
  unfold parseDomain
  generalize hn : s.toList.length + 1 = n
  obtain ⟨s2, ha, he⟩ := alt_match (name := "Sphere".toList) (input := sphereInput) (make := makeSphere)
    (l := [.list (c.map .num), .num q]) (D := .ok (.sphere c q none))
    (toks := listText cs ++ [[','], r]) (n := n) (s := s.toList) (by decide) (by intro c hc; simp at hc; subst hc; decide) (by omega)
    (fun s h => by
      simp only [List.append_assoc, List.cons_append, List.nil_append] at h
      obtain ⟨a1, e1, h⟩ := numList_match hc _ n s (by omega) h
      obtain ⟨a2, e2, h⟩ := layout_lit (a := ',') (by decide) h
      obtain ⟨a3, e3, h⟩ := layout_signed hr (by decide) (by decide) h
      refine ⟨a3, ?_, h⟩
      simp only [sphereInput, e1, e2, e3, Option.bind_eq_bind, Option.bind_some]
      rfl)
    (fun s h => by simp only [sphereInput, numList_none (by decide) (by decide) h]; rfl)
    (fun s h => by simp only [List.append_assoc] at h; exact listText_first s h)
    (by simp only [makeSphere, vec_nums]; rfl) (by simpa using hs)
  simp only [ha]
  simp [he]

/-- C55, tori: the outer radius comes first; a text with `outer <= inner` raises AssertionError. -/
theorem C55_torus_text (cs : List (List Char)) (ro ri : List Char) (c : List ℚ) (qo qi : ℚ) (hc : List.Forall₂ SignedNumeral cs c)
    (ho : SignedNumeral ro qo) (hi : SignedNumeral ri qi) (s : String) (hs : Layout (torusText cs ro ri) s.toList) :
    parseDomain s = if qi < qo then .ok (.torus c qo qi none) else .error .assertionError := by
  have hlen := layout_length hs
  have h1 := sum_signed hc
  unfold torusText listText at hlen
  simp only [List.map_append, List.sum_append, List.map_cons, List.sum_cons, List.map_nil, List.sum_nil, List.length_cons, List.length_nil] at hlen
  unfold torusText at hs
  simp only [List.cons_append, List.nil_append] at hs
  have hb : domainAlt "Sphere".toList sphereInput makeSphere (s.toList.length + 1) s.toList = none := by
    have hk0 : keywordC "Sphere".toList s.toList = none :=
      keyword_none (name' := "Torus".toList) (by intro c hc; simp at hc; subst hc; decide) (by decide) (fun r => rfl) hs
    simp only [domainAlt, hk0]; rfl
  have hb' : domainAlt "Rectangle".toList rectangleInput makeRectangle (s.toList.length + 1) s.toList = none := by
    have hk0 : keywordC "Rectangle".toList s.toList = none :=
      keyword_none (name' := "Torus".toList) (by intro c hc; simp at hc; subst hc; decide) (by decide) (fun r => rfl) hs
    simp only [domainAlt, hk0]; rfl
  unfold parseDomain
  simp only [hb, hb']
  generalize hn : s.toList.length + 1 = n
  obtain ⟨s2, ha, he⟩ := alt_match (name := "Torus".toList) (input := torusInput) (make := makeTorus)
    (l := [.list (c.map .num), .num qo, .num qi]) (D := if qi < qo then .ok (.torus c qo qi none) else .error .assertionError)
    (toks := listText cs ++ [[','], ro, [','], ri]) (n := n) (s := s.toList) (by decide) (by intro c hc; simp at hc; subst hc; decide) (by omega)
    (fun s h => by
      simp only [List.append_assoc, List.cons_append, List.nil_append] at h
      obtain ⟨a1, e1, h⟩ := numList_match hc _ n s (by omega) h
      obtain ⟨a2, e2, h⟩ := layout_lit (a := ',') (by decide) h
      obtain ⟨a3, e3, h⟩ := layout_signed ho (by decide) (by decide) h
      obtain ⟨a4, e4, h⟩ := layout_lit (a := ',') (by decide) h
      obtain ⟨a5, e5, h⟩ := layout_signed hi (by decide) (by decide) h
      refine ⟨a5, ?_, h⟩
      simp only [torusInput, e1, e2, e3, e4, e5, Option.bind_eq_bind, Option.bind_some]
      rfl)
    (fun s h => by simp only [torusInput, numList_none (by decide) (by decide) h]; rfl)
    (fun s h => by simp only [List.append_assoc] at h; exact listText_first s h)
    (by simp only [makeTorus, vec_nums]; rfl) (by simpa using hs)
  simp only [ha]
  split_ifs with hq
  · simp [he]
  · rfl

/-- C55, down to the solver: the formula handed to the solver for a rectangle text with `n` bounds holds exactly at the points between the bounds. -/
theorem C55_rectangle_formula (b : Lib) (n : ℕ) (lb ub : List (List Char)) (l u : List ℚ)
    (hl : List.Forall₂ SignedNumeral lb l) (hu : List.Forall₂ SignedNumeral ub u) (hln : lb.length = n) (hun : ub.length = n) (s : String)
    (hs : Layout (rectangleText lb ub) s.toList) :
    ∃ D φ, parseDomain s = .ok D ∧ D.generateDomain b (vars n) = .ok φ ∧
      ∀ p : Pt n, φ.holds p.env ↔ ∀ i : Fin n, ((l.getD i 0 : ℚ) : ℝ) ≤ p i ∧ p i ≤ ((u.getD i 0 : ℚ) : ℝ) := by
  have e1 : l.length = n := by rw [← hl.length_eq, hln]
  have e2 : u.length = n := by rw [← hu.length_eq, hun]
  obtain ⟨φ, h1, h2⟩ := C21_domain_formula_denotes_set b n (.rectangle l u none) ⟨e1, e2, Or.inl rfl⟩
    (by cases b <;> simp [supports, noEmpty, noReals])
  refine ⟨_, φ, C55_rectangle_text lb ub l u hl hu s hs, h1, fun p => ?_⟩
  rw [h2]
  simp only [docSet, Set.mem_ofPred_eq, coords, reals, List.forall₂_iff_get, List.length_map, List.length_ofFn, List.get_eq_getElem, List.getElem_map,
    List.getElem_ofFn]
  constructor
  · rintro ⟨⟨-, ha⟩, -, hb⟩ i
    have a := ha i (by rw [e1]; exact i.2) i.2
    have b := hb i i.2 (by rw [e2]; exact i.2)
    simp only [Fin.eta] at a b
    rw [List.getD_eq_getElem?_getD, List.getElem?_eq_getElem (by rw [e1]; exact i.2), List.getD_eq_getElem?_getD,
      List.getElem?_eq_getElem (by rw [e2]; exact i.2)]
    exact ⟨a, b⟩
  · intro h
    refine ⟨⟨e1, fun i h1 h2 => ?_⟩, e2.symm, fun i h1 h2 => ?_⟩
    · have := (h ⟨i, h2⟩).1
      rwa [List.getD_eq_getElem?_getD, List.getElem?_eq_getElem h1] at this
    · have := (h ⟨i, h1⟩).2
      rwa [List.getD_eq_getElem?_getD, List.getElem?_eq_getElem h2] at this

/-- Non-vacuity: a text with blanks, signs and fractions. -/
example : Layout (rectangleText [['-', '1', '.', '5'], ['0']] [['+', '2'], ['1', '0', '.', '2', '5']]) " Rectangle( [-1.5 ,0], [+2, 10.25] )  ".toList ∧
    List.Forall₂ SignedNumeral [['-', '1', '.', '5'], ['0']] [-(3/2), 0] ∧ List.Forall₂ SignedNumeral [['+', '2'], ['1', '0', '.', '2', '5']] [2, 41/4] := by
  have d : ∀ d : List Char, (d ≠ [] ∧ d.all (fun c => '0' ≤ c && c ≤ '9') = true) → Digits d := by
    intro d h; refine ⟨h.1, fun c hc => ?_⟩
    have := List.all_eq_true.1 h.2 c hc
    simpa using this
  refine ⟨?_, ?_, ?_⟩
  · have lay : ∀ w t ts s', Blank w → Layout ts s' → Layout (t :: ts) (w ++ t ++ s') := fun w t ts s' hw h => ⟨w, s', hw, rfl, h⟩
    have b0 : Blank [] := by intro c hc; cases hc
    have b1 : Blank [' '] := by intro c hc; simp at hc; exact Or.inl hc
    have b2 : Blank [' ', ' '] := by intro c hc; simp at hc; exact Or.inl hc
    have := lay [' '] "Rectangle".toList _ _ b1 <| lay [] ['('] _ _ b0 <| lay [' '] ['['] _ _ b1 <| lay [] ['-', '1', '.', '5'] _ _ b0 <|
      lay [' '] [','] _ _ b1 <| lay [] ['0'] _ _ b0 <| lay [] [']'] _ _ b0 <| lay [] [','] _ _ b0 <| lay [' '] ['['] _ _ b1 <|
      lay [] ['+', '2'] _ _ b0 <| lay [] [','] _ _ b0 <| lay [' '] ['1', '0', '.', '2', '5'] _ _ b1 <| lay [] [']'] _ _ b0 <|
      lay [' '] [')'] [] [' ', ' '] b1 b2
    exact this
  · have h1 : SignedNumeral ['-', '1', '.', '5'] (-(3/2)) := by
      have := SignedNumeral.minus (Numeral.dec (a := ['1']) (b := ['5']) (d _ (by decide)) (d _ (by decide)))
      have e : ((digitsValue ['1'] : ℕ) : ℚ) + (digitsValue ['5'] : ℕ) / 10 ^ (['5'] : List Char).length = 3/2 := by decide +kernel
      rwa [e] at this
    have h2 : SignedNumeral ['0'] 0 := by
      have := SignedNumeral.none (Numeral.int (d := ['0']) (d _ (by decide)))
      simpa [digitsValue, Nat.ofDigits] using this
    exact .cons h1 (.cons h2 .nil)
  · have h1 : SignedNumeral ['+', '2'] 2 := by
      have := SignedNumeral.plus (Numeral.int (d := ['2']) (d _ (by decide)))
      simpa [digitsValue, Nat.ofDigits] using this
    have h2 : SignedNumeral ['1', '0', '.', '2', '5'] (41/4) := by
      have := SignedNumeral.none (Numeral.dec (a := ['1', '0']) (b := ['2', '5']) (d _ (by decide)) (d _ (by decide)))
      have e : ((digitsValue ['1', '0'] : ℕ) : ℚ) + (digitsValue ['2', '5'] : ℕ) / 10 ^ (['2', '5'] : List Char).length = 41/4 := by decide +kernel
      rwa [e] at this
    exact .cons h1 (.cons h2 .nil)

/-- C55, surprises (all accepted silently): a forgotten comma or an arithmetic expression changes the dimension, `[0, 3-1]` is `[0, 3, -1]`;
everything after the first complete input between the round brackets is dropped. -/
theorem C55_silently_misread :
    parseDomain "Rectangle([0, 3-1], [4 5])" = .ok (.rectangle [0, 3, -1] [4, 5] none) ∧
    parseDomain "Sphere([0, 0], 1 [5, 5], 2)" = .ok (.sphere [0, 0] 1 none) := by
  constructor <;> decide +kernel

/-- C55: numerals in scientific notation, without leading or trailing digit, or with a blank after the sign are rejected. -/
theorem C55_rejected_numerals :
    parseDomain "Sphere([0], 1e-3)" = .error .valueError ∧ parseDomain "Sphere([0], .5)" = .error .valueError ∧
    parseDomain "Sphere([0], 5.)" = .error .valueError ∧ parseDomain "Sphere([- 1], 5)" = .error .valueError := by
  refine ⟨?_, ?_, ?_, ?_⟩ <;> decide +kernel

end Fossil

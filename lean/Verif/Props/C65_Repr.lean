/-
C65: the printed form of a set reads back as the set.
-/
import Verif.Repr
import Verif.Props.C55_DomainText
import Verif.Props.C56_Config

namespace Fossil
open Spec

namespace Spec

/-- The numbers in a set. -/
def numbers : PySet → List ℚ
  | .rectangle lb ub _ | .openRectangle lb ub _ => lb ++ ub
  | .sphere c r _ | .openSphere c r _ | .posSphere c r | .bean c r => c ++ [r]
  | .ellipse a c r _ => a ++ c ++ [r]
  | .torus c ro ri _ => c ++ [ro, ri]
  | .empty | .reals _ => []
  | .union S T | .inter S T | .setMinus S T => numbers S ++ numbers T
  | .compl S => numbers S

/-- The numbers of the set print as plain decimals (no exponent). -/
def Plain (num : ℚ → String) (S : PySet) : Prop := ∀ q ∈ numbers S, SignedNumeral (num q).toList q

/-- The set without its selection of dimensions. -/
def withoutSelection : PySet → PySet
  | .rectangle lb ub _ => .rectangle lb ub none
  | .openRectangle lb ub _ => .openRectangle lb ub none
  | .sphere c r _ => .sphere c r none
  | .openSphere c r _ => .openSphere c r none
  | .ellipse a c r _ => .ellipse a c r none
  | .torus c ro ri _ => .torus c ro ri none
  | S => S

/-- The shapes that can be written in a configuration file. -/
def Writable : PySet → Prop
  | .rectangle .. | .sphere .. | .torus .. => True
  | _ => False

/-- Whether `Reals` occurs in the expression. -/
def mentionsReals : PySet → Prop
  | .reals _ => True
  | .union S T | .inter S T | .setMinus S T => mentionsReals S ∨ mentionsReals T
  | .compl S => mentionsReals S
  | _ => False

end Spec

theorem blank_nil : Blank [] := fun c hc => by cases hc
theorem layout_nil : Layout [] [] := blank_nil
theorem blank_space : Blank [' '] := fun c hc => by simp at hc; exact Or.inl hc

theorem layout_cons {t : List Char} {ts : List (List Char)} {s : List Char} (h : Layout ts s) : Layout (t :: ts) (t ++ s) :=
  ⟨[], s, blank_nil, by simp, h⟩

theorem layout_space {t : List Char} {ts : List (List Char)} {s : List Char} (h : Layout (t :: ts) s) : Layout (t :: ts) (' ' :: s) := by
  obtain ⟨w, s', hw, rfl, h⟩ := h
  refine ⟨' ' :: w, s', fun c hc => ?_, by simp, h⟩
  rcases List.mem_cons.1 hc with rfl | hc
  · exact Or.inl rfl
  · exact hw c hc

theorem intercalate_chars (sep : String) : ∀ l : List String, (sep.intercalate l).toList = (sep.toList).intercalate (l.map String.toList) := by
  intro l
  simp [String.toList_intercalate]

theorem layout_tail (ns : List (List Char)) (rest : List (List Char)) (s : List Char) (h : Layout rest s) :
    Layout (ns.flatMap (fun m => [[','], m]) ++ rest) (ns.flatMap (fun m => ',' :: ' ' :: m) ++ s) := by
  induction ns with
  | nil => exact h
  | cons m ns ih =>
    simp only [List.flatMap_cons, List.cons_append, List.nil_append, List.append_assoc]
    exact layout_cons (t := [',']) (layout_space (layout_cons ih))

theorem intercalate_flat (x : List Char) (ns : List (List Char)) :
    [',', ' '].intercalate (x :: ns) = x ++ ns.flatMap (fun m => ',' :: ' ' :: m) := by
  induction ns generalizing x with
  | nil => simp [List.intercalate]
  | cons y ns ih =>
    have : [',', ' '].intercalate (x :: y :: ns) = x ++ ([',', ' '] ++ [',', ' '].intercalate (y :: ns)) := by
      simp [List.intercalate, List.intersperse]
    rw [this, ih]
    simp

theorem layout_list (num : ℚ → String) (l : List ℚ) (rest : List (List Char)) (s : List Char) (h : Layout rest s) :
    Layout (listText (l.map fun q => (num q).toList) ++ rest) ((pyListText num l).toList ++ s) := by
  have e : (pyListText num l).toList = '[' :: [',', ' '].intercalate (l.map fun q => (num q).toList) ++ [']'] := by
    simp [pyListText, intercalate_chars, Function.comp_def]
  rw [e]
  unfold listText
  cases l with
  | nil => exact layout_cons (t := ['[']) (layout_cons (t := [']']) h)
  | cons q l =>
    simp only [List.map_cons, commaSep, List.append_assoc, List.cons_append, List.nil_append, intercalate_flat]
    exact layout_cons (t := ['[']) (layout_cons (layout_tail _ _ _ (layout_cons (t := [']']) h)))

theorem forall₂_map {num : ℚ → String} {l : List ℚ} (h : ∀ q ∈ l, SignedNumeral (num q).toList q) :
    List.Forall₂ SignedNumeral (l.map fun q => (num q).toList) l := by
  rw [List.forall₂_map_left_iff]
  induction l with
  | nil => exact .nil
  | cons q l ih => exact .cons (h q (by simp)) (ih fun r hr => h r (by simp [hr]))

theorem callText_chars (name : List Char) (args : List String) :
    (callText name args).toList = name ++ ('(' :: ([',', ' '].intercalate (args.map String.toList) ++ [')'])) := by
  have k : ", ".toList = [',', ' '] := by decide +kernel
  simp [callText, intercalate_chars, k]

theorem layout_list_space (num : ℚ → String) (l : List ℚ) (rest : List (List Char)) (s : List Char) (h : Layout rest s) :
    Layout (listText (l.map fun q => (num q).toList) ++ rest) (' ' :: ((pyListText num l).toList ++ s)) := by
  have := layout_list num l rest s h
  unfold listText at this ⊢
  exact layout_space this

/-- **C65.** A rectangle, sphere or torus whose numbers print as plain decimals reads back from its printed form, without its selection
of dimensions. -/
theorem C65_reads_back (num : ℚ → String) (S : PySet) (hS : Writable S) (hc : ∃ d, S.construct = .ok d) (hp : Plain num S) :
    ∃ s, S.text num = .ok s ∧ parseDomain s = .ok (withoutSelection S) := by
  cases S with
  | rectangle lb ub ds =>
    have h1 : Layout (rectangleText (lb.map fun q => (num q).toList) (ub.map fun q => (num q).toList)) (callText ShapeName.Rectangle.chars [pyListText num lb, pyListText num ub]).toList := by
      simp only [ShapeName.chars, callText_chars, List.map_cons, List.map_nil, intercalate_flat, List.flatMap_cons, List.flatMap_nil, rectangleText,
        List.append_assoc, List.cons_append, List.nil_append]
      exact layout_cons (layout_cons (t := ['(']) (layout_list num lb _ _ (layout_cons (t := [',']) (layout_list_space num ub _ _
        (layout_cons (t := [')']) layout_nil)))))
    refine ⟨_, rfl, ?_⟩
    exact C55_rectangle_text _ _ lb ub (forall₂_map fun q hq => hp q (List.mem_append_left _ hq)) (forall₂_map fun q hq => hp q (List.mem_append_right _ hq)) _ h1
  | sphere c r ds =>
    have h1 : Layout (sphereText (c.map fun q => (num q).toList) (num r).toList) (callText ShapeName.Sphere.chars [pyListText num c, num r]).toList := by
      simp only [ShapeName.chars, callText_chars, List.map_cons, List.map_nil, intercalate_flat, List.flatMap_cons, List.flatMap_nil, sphereText,
        List.append_assoc, List.cons_append, List.nil_append]
      exact layout_cons (layout_cons (t := ['(']) (layout_list num c _ _ (layout_cons (t := [',']) (layout_space (layout_cons
        (layout_cons (t := [')']) layout_nil))))))
    refine ⟨_, rfl, ?_⟩
    exact C55_sphere_text _ _ c r (forall₂_map fun q hq => hp q (List.mem_append_left _ hq)) (hp r (List.mem_append_right _ (by simp))) _ h1
  | torus c ro ri ds =>
    have hlt : ri < ro := by
      obtain ⟨d, hd⟩ := hc
      simp only [PySet.construct] at hd
      by_contra h
      rw [if_neg h] at hd
      cases hd
    have h1 : Layout (torusText (c.map fun q => (num q).toList) (num ro).toList (num ri).toList) (callText ShapeName.Torus.chars [pyListText num c, num ro, num ri]).toList := by
      simp only [ShapeName.chars, callText_chars, List.map_cons, List.map_nil, intercalate_flat, List.flatMap_cons, List.flatMap_nil, torusText,
        List.append_assoc, List.cons_append, List.nil_append]
      exact layout_cons (layout_cons (t := ['(']) (layout_list num c _ _ (layout_cons (t := [',']) (layout_space (layout_cons
        (layout_cons (t := [',']) (layout_space (layout_cons (layout_cons (t := [')']) layout_nil)))))))))
    refine ⟨_, rfl, ?_⟩
    rw [C55_torus_text _ _ _ c ro ri (forall₂_map fun q hq => hp q (List.mem_append_left _ hq)) (hp ro (List.mem_append_right _ (by simp)))
      (hp ri (List.mem_append_right _ (by simp))) _ h1, if_pos hlt]
    rfl
  | _ => exact hS.elim

theorem alt_none {name : List Char} {input : ℕ → List Char → Option (List DTree × List Char)} {make : List DTree → Option (Except Err PySet)} {n : ℕ}
    {cs : List Char} (h : keywordC name cs = none) : domainAlt name input make n cs = none := by
  simp only [domainAlt, h]; rfl

/-- **C65.** A set has a printed form exactly if `Reals` does not occur in it; printing a set with `Reals` raises an AttributeError. -/
theorem C65_prints_iff (num : ℚ → String) (S : PySet) :
    (¬ mentionsReals S → ∃ s, S.text num = .ok s) ∧ (mentionsReals S → S.text num = .error .attributeError) := by
  induction S with
  | union S T ihS ihT | inter S T ihS ihT | setMinus S T ihS ihT =>
    simp only [mentionsReals, not_or, PySet.text]
    constructor
    · rintro ⟨h1, h2⟩
      obtain ⟨a, ha⟩ := ihS.1 h1
      obtain ⟨b, hb⟩ := ihT.1 h2
      exact ⟨_, by rw [ha, hb]; rfl⟩
    · intro h
      by_cases h1 : mentionsReals S
      · rw [ihS.2 h1]; rfl
      · obtain ⟨a, ha⟩ := ihS.1 h1
        rw [ha, ihT.2 (h.resolve_left h1)]; rfl
  | compl S ih =>
    simp only [mentionsReals, PySet.text]
    constructor
    · intro h
      obtain ⟨a, ha⟩ := ih.1 h
      exact ⟨_, by rw [ha]; rfl⟩
    · intro h
      rw [ih.2 h]; rfl
  | reals d => exact ⟨fun h => absurd trivial h, fun _ => rfl⟩
  | _ => exact ⟨fun _ => ⟨_, rfl⟩, fun h => h.elim⟩

/-- **C65.** The printed form of every other set is a text that configuration files do not accept, however numbers are printed. -/
theorem C65_others_rejected (num : ℚ → String) (S : PySet) (hS : ¬ Writable S) (s : String) (hs : S.text num = .ok s) :
    parseDomain s = .error .valueError := by
  have key : ∀ s : String, (∃ a r, s.toList = a :: r ∧ isWs a = false ∧ a ≠ 'S' ∧ a ≠ 'T' ∧ (a ≠ 'R' ∨ ∃ b r', r = b :: r' ∧ b ≠ 'e')) → parseDomain s = .error .valueError := by
    rintro s ⟨a, r, hs, hw, h1, h2, h3⟩
    have k1 : keywordC "Sphere".toList s.toList = none := by
      rw [hs]; simp [keywordC, litC, skipWs, hw, List.isPrefixOf?, Ne.symm h1]
    have k2 : keywordC "Rectangle".toList s.toList = none := by
      rw [hs]
      rcases h3 with h3 | ⟨b, r', rfl, h3⟩
      · simp [keywordC, litC, skipWs, hw, List.isPrefixOf?, Ne.symm h3]
      · by_cases h4 : 'R' = a
        · simp [keywordC, litC, skipWs, hw, List.isPrefixOf?, h4, Ne.symm h3]
        · simp [keywordC, litC, skipWs, hw, List.isPrefixOf?, h4]
    have k3 : keywordC "Torus".toList s.toList = none := by
      rw [hs]; simp [keywordC, litC, skipWs, hw, List.isPrefixOf?, Ne.symm h2]
    simp only [parseDomain, alt_none k1, alt_none k2, alt_none k3]
    rfl
  cases S with
  | rectangle | sphere | torus => exact absurd trivial hS
  | reals d => cases hs
  | empty => cases hs; exact key _ ⟨'E', _, by simp; rfl, by decide, by decide, by decide, Or.inl (by decide)⟩
  | union S T | inter S T | setMinus S T =>
    obtain ⟨a, -, hs⟩ := except_bind_ok hs
    obtain ⟨b, -, hs⟩ := except_bind_ok hs
    cases hs
    exact key _ ⟨'(', _, by simp [opText]; rfl, by decide, by decide, by decide, Or.inl (by decide)⟩
  | compl S =>
    obtain ⟨a, -, hs⟩ := except_bind_ok hs
    cases hs
    exact key _ ⟨_, _, by simp only [callText_chars]; rfl, by decide, by decide, by decide, Or.inl (by decide)⟩
  | _ => cases hs; exact key _ ⟨_, _, by simp only [callText_chars, ShapeName.chars]; rfl, by decide, by decide, by decide, Or.inl (by decide)⟩

/-- **C65.** Exact: a constructible set whose numbers print as plain decimals reads back from its printed form as the same set if and only
if it is a rectangle, sphere or torus without a selection of dimensions. -/
theorem C65_reads_back_iff (num : ℚ → String) (S : PySet) (hc : ∃ d, S.construct = .ok d) (hp : Plain num S) :
    (∃ s, S.text num = .ok s ∧ parseDomain s = .ok S) ↔ Writable S ∧ withoutSelection S = S := by
  by_cases hS : Writable S
  · obtain ⟨s, h1, h2⟩ := C65_reads_back num S hS hc hp
    constructor
    · rintro ⟨s', h3, h4⟩
      rw [h1] at h3; cases h3
      rw [h2] at h4
      exact ⟨hS, Except.ok.inj h4⟩
    · rintro ⟨-, h⟩; exact ⟨s, h1, by rw [h2, h]⟩
  · constructor
    · rintro ⟨s, h1, h2⟩
      rw [C65_others_rejected num S hS s h1] at h2
      cases h2
    · rintro ⟨h, -⟩; exact absurd h hS

/-- **C65.** Different sets of the writable shapes (selections aside) have different printed forms: the text in a results file identifies the set. -/
theorem C65_text_identifies (num : ℚ → String) (S T : PySet) (hS : Writable S) (hT : Writable T) (hcS : ∃ d, S.construct = .ok d) (hcT : ∃ d, T.construct = .ok d)
    (hpS : Plain num S) (hpT : Plain num T) (h : S.text num = T.text num) : withoutSelection S = withoutSelection T := by
  obtain ⟨s, h1, h2⟩ := C65_reads_back num S hS hcS hpS
  obtain ⟨t, h3, h4⟩ := C65_reads_back num T hT hcT hpT
  rw [h, h3] at h1; cases h1
  rw [h2] at h4
  exact Except.ok.inj h4

/-- The printed form does not show a selection of dimensions: two different, well-formed strips of the plane (`|x0| ≤ 1` and `|x1| ≤ 1`)
print alike, so the text in a results file does not identify the set. -/
theorem C65_selection_not_shown (num : ℚ → String) :
    WF 2 (.sphere [0] 1 (some [0])) ∧ WF 2 (.sphere [0] 1 (some [1])) ∧
    (PySet.sphere [0] 1 (some [0])).text num = (PySet.sphere [0] 1 (some [1])).text num ∧
    docSet 2 (.sphere [0] 1 (some [0])) ≠ docSet 2 (.sphere [0] 1 (some [1])) := by
  refine ⟨by simp [WF, selCount, selOk], by simp [WF, selCount, selOk], rfl, fun h => ?_⟩
  have h1 : (![0, 5] : Pt 2) ∈ docSet 2 (.sphere [0] 1 (some [0])) := by
    simp [docSet, euclid, coords, reals, Pt.env]
  rw [h] at h1
  simp [docSet, euclid, coords, reals, Pt.env] at h1

/-- A printer of numbers for the examples: `-1` as `-1`, anything else as `2`. -/
def exNum (q : ℚ) : String := if q = -1 then "-1" else "2"

theorem exNum_plain : ∀ q : ℚ, q = -1 ∨ q = 2 → SignedNumeral (exNum q).toList q := by
  rintro q (rfl | rfl)
  · exact .minus (numeral_int (d := ['1']) (by decide) (by decide +kernel))
  · exact .none (numeral_int (d := ['2']) (by decide) (by decide +kernel))

/-- The hypotheses hold of a concrete rectangle, whose text is what Python prints. -/
example : Writable (.rectangle [-1, -1] [2, 2] none) ∧ (∃ d, (PySet.rectangle [-1, -1] [2, 2] none).construct = .ok d) ∧
    Plain exNum (.rectangle [-1, -1] [2, 2] none) ∧ (PySet.rectangle [-1, -1] [2, 2] none).text exNum = .ok "Rectangle([-1, -1], [2, 2])" :=
  ⟨trivial, ⟨_, rfl⟩, fun q hq => exNum_plain q (by simpa [numbers] using hq), by decide +kernel⟩

example : parseDomain "Rectangle([-1, -1], [2, 2])" = .ok (.rectangle [-1, -1] [2, 2] none) := by
  obtain ⟨s, h1, h2⟩ := C65_reads_back exNum (.rectangle [-1, -1] [2, 2] none) trivial ⟨_, rfl⟩
    (fun q hq => exNum_plain q (by simpa [numbers] using hq))
  rw [show (PySet.rectangle [-1, -1] [2, 2] none).text exNum = .ok "Rectangle([-1, -1], [2, 2])" by decide +kernel] at h1
  cases h1
  exact h2

/-- And of a set that cannot be read back. -/
example : ¬ Writable (.union (.sphere [2] 2 none) .empty) ∧
    (PySet.union (.sphere [2] 2 none) .empty).text exNum = .ok "(Sphere([2], 2) | EmptySet)" := ⟨id, by decide +kernel⟩

/-- And of one that cannot be printed. -/
example : mentionsReals (.setMinus (.reals 2) (.sphere [0, 0] 1 none)) ∧ (PySet.setMinus (.reals 2) (.sphere [0, 0] 1 none)).text exNum = .error .attributeError :=
  ⟨Or.inl trivial, by decide +kernel⟩

end Fossil

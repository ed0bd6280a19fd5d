/-
C72: which runs can be recorded.
-/
import Verif.Record
import Verif.Props.C41_Csv
import Verif.Props.C65_Repr
import Verif.Props.C57_Construct

namespace Fossil
open Spec

namespace Spec

/-- A set expression can be written out in `d` coordinates: its bounds and centres fit `d`, selections of dimensions stay below `d`, and neither `EmptySet`
nor `Reals` occurs. -/
def Renders (d : ℕ) : PySet → Prop
  | .rectangle lb ub _ | .openRectangle lb ub _ => lb.length ≤ d ∧ lb.length ≤ ub.length
  | .sphere c _ ds | .openSphere c _ ds | .torus c _ _ ds => selOk d ds ∧ selCount d ds ≤ c.length
  | .ellipse a c _ ds => selOk d ds ∧ selCount d ds ≤ c.length ∧ selCount d ds ≤ a.length ∧ (noSel ds ∨ a.length = selCount d ds)
  | .posSphere c _ => c.length ≤ d
  | .bean c _ => d = 2 ∧ c.length = 2
  | .empty | .reals _ => False
  | .union S T | .inter S T | .setMinus S T => Renders d S ∧ Renders d T
  | .compl S => Renders d S

/-- The activations that have a name in the records. -/
def NamedActs (l : List ActivationType) : Prop := ∀ a ∈ l, a ≠ .SHIFTED_SOFTPLUS ∧ a ≠ .SHIFTED_SOFTPLUS_SQUARE

/-- The sets a record of each kind of certificate writes out as formulas. -/
def shownSets : CertType → List String
  | .LYAPUNOV => ["lie"]
  | .ROA => ["init"]
  | .BARRIER | .BARRIERALT | .STABLESAFE => ["lie", "init", "unsafe"]
  | .RWS | .RSWS => ["lie", "safe", "init", "goal"]
  | .RAR => ["lie", "safe", "init", "goal", "final"]
  | .RWA | .RSWA | .CUSTOM => []

/-- No part of the set is restricted to a selection of dimensions. -/
def unselected : PySet → Prop
  | .rectangle _ _ ds | .openRectangle _ _ ds | .sphere _ _ ds | .openSphere _ _ ds | .torus _ _ _ ds | .ellipse _ _ _ ds => noSel ds
  | .union S T | .inter S T | .setMinus S T => unselected S ∧ unselected T
  | .compl S => unselected S
  | _ => True

/-- The model can be written out: a model without inputs has at least two variables, and its dynamics can be formed from sympy symbols. -/
def ModelShown : SystemArg → Prop
  | .plain _ n smt => 2 ≤ n ∧ ∃ r, smt (vars n) = .ok r
  | .closed _ n m smt => 1 ≤ n ∧ ∃ r, smt (vars n) ((List.range m).map fun i => .var (n + i)) = .ok r

end Spec

theorem mapE_isOk {α β : Type _} {f : α → Except Err β} {l : List α} : (∃ r, mapE f l = .ok r) ↔ ∀ a ∈ l, ∃ b, f a = .ok b := by
  induction l with
  | nil => simp [mapE]
  | cons a l ih =>
    constructor
    · rintro ⟨r, h⟩ x hx
      simp only [mapE] at h
      cases ha : f a with
      | error e => simp [ha] at h
      | ok b =>
        cases hl : mapE f l with
        | error e => simp [ha, hl] at h
        | ok bs =>
          rcases List.mem_cons.1 hx with rfl | hx
          · exact ⟨b, ha⟩
          · exact ih.1 ⟨bs, hl⟩ x hx
    · intro h
      obtain ⟨b, hb⟩ := h a (by simp)
      obtain ⟨bs, hbs⟩ := ih.2 fun x hx => h x (by simp [hx])
      exact ⟨b :: bs, by simp [mapE, hb, hbs]⟩

theorem bind_isOk {α β : Type _} {x : Except Err α} {k : α → Except Err β} {P : Prop} (h : ∀ a, x = .ok a → ((∃ r, k a = .ok r) ↔ P)) :
    (∃ r, (x >>= k) = .ok r) ↔ (∃ a, x = .ok a) ∧ P := by
  cases hx : x with
  | error e => simp [Bind.bind, Except.bind]
  | ok a => simpa [Bind.bind, Except.bind] using h a hx

theorem at?_isOk {α : Type _} {l : List α} {i : ℕ} : (∃ a, at? l i = .ok a) ↔ i < l.length := by
  constructor
  · rintro ⟨a, h⟩
    by_contra hc
    simp [at?, List.getElem?_eq_none (Nat.le_of_not_lt hc)] at h
  · intro h; exact ⟨_, at?_ok h⟩

theorem range_all {m : ℕ} {P : ℕ → Prop} : (∀ i ∈ List.range m, P i) ↔ ∀ i < m, P i := by simp

theorem all_lt {m k : ℕ} : (∀ i < m, i < k) ↔ m ≤ k := by
  constructor
  · intro h; by_contra hc; exact absurd (h k (by omega)) (by omega)
  · intro h i hi; omega

theorem sqDist_isOk {x : List Term} {c : List ℚ} {m : ℕ} : (∃ r, sqDist x c m = .ok r) ↔ m ≤ x.length ∧ m ≤ c.length := by
  unfold sqDist
  rw [bind_isOk (P := True) (fun a _ => by simp [pure, Except.pure]), mapE_isOk, and_true, range_all]
  have : ∀ i, (∃ b, sqEntry x c i = .ok b) ↔ i < x.length ∧ i < c.length := by
    intro i
    unfold sqEntry
    rw [bind_isOk (P := i < c.length), at?_isOk]
    intro a _
    rw [bind_isOk (P := True) (fun a _ => by simp [pure, Except.pure]), at?_isOk, and_true]
  simp only [this]
  rw [forall₂_congr (fun i _ => Iff.rfl), ← all_lt, ← all_lt (k := c.length)]
  exact ⟨fun h => ⟨fun i hi => (h i hi).1, fun i hi => (h i hi).2⟩, fun h i hi => ⟨h.1 i hi, h.2 i hi⟩⟩

theorem sqEll_isOk {x : List Term} {a c : List ℚ} {m : ℕ} : (∃ r, sqEll x a c m = .ok r) ↔ m ≤ a.length ∧ m ≤ x.length ∧ m ≤ c.length := by
  unfold sqEll
  rw [bind_isOk (P := True) (fun a _ => by simp [pure, Except.pure]), mapE_isOk, and_true, range_all]
  have : ∀ i, (∃ b, ellEntry x a c i = .ok b) ↔ i < a.length ∧ i < x.length ∧ i < c.length := by
    intro i
    unfold ellEntry
    rw [bind_isOk (P := i < x.length ∧ i < c.length), at?_isOk]
    intro _ _
    rw [bind_isOk (P := i < c.length), at?_isOk]
    intro _ _
    rw [bind_isOk (P := True) (fun a _ => by simp [pure, Except.pure]), at?_isOk, and_true]
  simp only [this]
  rw [← all_lt, ← all_lt (k := c.length), ← all_lt (k := x.length)]
  exact ⟨fun h => ⟨fun i hi => (h i hi).1, fun i hi => (h i hi).2.1, fun i hi => (h i hi).2.2⟩, fun h i hi => ⟨h.1 i hi, h.2.1 i hi, h.2.2 i hi⟩⟩

theorem boundList_isOk {cmp : Term → Term → Formula} {lower : Bool} {bs : List ℚ} {m : ℕ} {x : List Term} :
    (∃ r, boundList cmp lower bs m x = .ok r) ↔ m ≤ bs.length ∧ m ≤ x.length := by
  unfold boundList
  rw [mapE_isOk, range_all]
  have : ∀ i, (∃ b, boundEntry cmp lower bs x i = .ok b) ↔ i < bs.length ∧ i < x.length := by
    intro i
    unfold boundEntry
    rw [bind_isOk (P := i < x.length), at?_isOk]
    intro a _
    rw [bind_isOk (P := True) (fun a _ => by simp [pure, Except.pure]), at?_isOk, and_true]
  simp only [this]
  rw [← all_lt, ← all_lt (k := x.length)]
  exact ⟨fun h => ⟨fun i hi => (h i hi).1, fun i hi => (h i hi).2⟩, fun h i hi => ⟨h.1 i hi, h.2 i hi⟩⟩

theorem selectDims_isOk {d : ℕ} {ds : Option (List ℕ)} {Q : ℕ → Prop} {k : List Term → Except Err Formula}
    (hk : ∀ x : List Term, (∃ r, k x = .ok r) ↔ Q x.length) :
    (∃ r, (selectDims ds (vars d) >>= k) = .ok r) ↔ selOk d ds ∧ Q (selCount d ds) := by
  by_cases h : selOk d ds
  · rw [selectDims_vars h]
    simp only [Bind.bind, Except.bind, hk, length_symCoords, h, true_and]
  · simp only [h, false_and, iff_false]
    rintro ⟨r, hr⟩
    obtain ⟨y, hy, -⟩ := except_bind_ok hr
    match ds, h, hy with
    | none, h, _ => exact h (by simp [selOk])
    | some [], h, _ => exact h (by simp [selOk])
    | some (e :: ds), h, hy =>
      refine h fun i hi => ?_
      have := mapE_isOk.1 ⟨y, hy⟩ i hi
      simpa using at?_isOk.1 this

theorem pure_isOk {α β : Type _} {x : Except Err α} {f : α → β} : (∃ r, (do let a ← x; pure (f a) : Except Err β) = .ok r) ↔ ∃ a, x = .ok a := by
  rw [bind_isOk (P := True) (fun a _ => by simp [pure, Except.pure]), and_true]

theorem need_bind {α : Type} {b : Lib} {k : LibKey} (h : b.has k = true) (x : Except Err α) : (b.need k >>= fun _ => x) = x := by
  simp [Lib.need, h, Bind.bind, Except.bind]

/-- Which sets can be written out as formulas over `d` sympy symbols. -/
theorem generate_renders (d : ℕ) (S : PySet) : (∃ φ, S.generateDomain .sympy (vars d) = .ok φ) ↔ Renders d S := by
  have rect : ∀ cmp lb ub, (∃ φ, rectDomain .sympy cmp lb ub (vars d) = .ok φ) ↔ lb.length ≤ d ∧ lb.length ≤ ub.length := by
    intro cmp lb ub
    unfold rectDomain
    rw [need_bind (by rfl), bind_isOk (P := lb.length ≤ ub.length ∧ lb.length ≤ d), boundList_isOk]
    · simp; tauto
    · intro a _
      rw [pure_isOk, boundList_isOk]
      simp
  induction S with
  | rectangle lb ub ds | openRectangle lb ub ds => exact rect _ lb ub
  | sphere c r ds | openSphere c r ds =>
    simp only [PySet.generateDomain, Renders]
    refine selectDims_isOk (Q := fun m => m ≤ c.length) fun x => ?_
    rw [pure_isOk, sqDist_isOk]; simp
  | torus c ro ri ds =>
    simp only [PySet.generateDomain, Renders]
    refine selectDims_isOk (Q := fun m => m ≤ c.length) fun x => ?_
    rw [need_bind (by rfl), pure_isOk, sqDist_isOk]; simp
  | ellipse a c r ds =>
    simp only [PySet.generateDomain, Renders]
    rw [bind_isOk (P := selOk d ds ∧ selCount d ds ≤ a.length ∧ selCount d ds ≤ c.length)]
    · have : (∃ u, ellGuard a ds = .ok u) ↔ noSel ds ∨ a.length = selCount d ds := by
        match ds with
        | none => simp [ellGuard, noSel]
        | some [] => simp [ellGuard, noSel]
        | some (e :: ds) =>
          by_cases h : a.length = (e :: ds).length <;> simp [ellGuard, noSel, selCount] at h ⊢ <;> simp [h]
      rw [this]; tauto
    · intro _ _
      refine selectDims_isOk (Q := fun m => m ≤ a.length ∧ m ≤ c.length) fun x => ?_
      rw [pure_isOk, sqEll_isOk]; simp
  | posSphere c r =>
    simp only [PySet.generateDomain, Renders]
    rw [need_bind (by rfl), pure_isOk, sqDist_isOk]; simp
  | bean c r =>
    simp only [PySet.generateDomain, Renders]
    rw [pure_isOk]
    unfold beanPoly
    constructor
    · rintro ⟨t, h⟩
      split at h
      · rename_i x y c0 c1 hv
        have := congrArg List.length hv
        simp at this
        exact ⟨this, rfl⟩
      · cases h
    · rintro ⟨rfl, hc⟩
      match c, hc with
      | [c0, c1], _ => exact ⟨_, rfl⟩
  | empty => simp [PySet.generateDomain, Renders, Lib.need, Lib.has, Bind.bind, Except.bind]
  | reals m => simp [PySet.generateDomain, Renders, Lib.need, Lib.has, Bind.bind, Except.bind]
  | union S T ihS ihT | inter S T ihS ihT =>
    simp only [PySet.generateDomain, Renders]
    rw [need_bind (by rfl)]
    exact (bind_isOk fun a _ => pure_isOk).trans (and_congr ihS ihT)
  | setMinus S T ihS ihT =>
    simp only [PySet.generateDomain, Renders]
    rw [need_bind (by rfl)]
    refine (bind_isOk fun a _ => ?_).trans (and_congr ihS ihT)
    rw [need_bind (by rfl)]
    exact pure_isOk
  | compl S ih =>
    simp only [PySet.generateDomain, Renders]
    rw [need_bind (by rfl)]
    exact pure_isOk.trans ih

/-- **C72.** `to_latex` of a set succeeds exactly if the set has a dimension and can be written out in that many coordinates. -/
theorem C72_set_shown_iff (latexF : Formula → String) (S : PySet) :
    (∃ t, S.toLatex latexF = .ok t) ↔ ∃ d, S.construct = .ok (some d) ∧ Renders d S := by
  unfold PySet.toLatex
  cases hc : S.construct with
  | error e => simp [Bind.bind, Except.bind]
  | ok d =>
    cases d with
    | none => simp [Bind.bind, Except.bind]
    | some d =>
      have := (pure_isOk (f := latexF)).trans (generate_renders d S)
      simpa [Bind.bind, Except.bind] using this

theorem systemLatex_isOk (latexT : List Term → String) (s : SystemArg) : (∃ t, systemLatex latexT s = .ok t) ↔ ModelShown s := by
  cases s with
  | plain name n smt =>
    match n with
    | 0 => simp [systemLatex, plainLatex, ModelShown]
    | 1 => simp [systemLatex, plainLatex, ModelShown]
    | n + 2 =>
      simp only [systemLatex, plainLatex, ModelShown]
      cases hs : smt (vars (n + 2)) with
      | ok r => simp [Except.map]
      | error e => cases e <;> simp [Except.map]
  | closed name n m smt =>
    simp only [systemLatex, ModelShown]
    by_cases h : n = 0
    · subst h; simp
    · rw [if_neg h]
      cases hs : smt (vars n) ((List.range m).map fun i => .var (n + i)) with
      | ok r => simp [Except.map]; omega
      | error e => simp [Except.map]

theorem label_isOk (latexF : Formula → String) (d : Dict String PySet) (l : String) :
    (∃ t, labelLatex latexF d l = .ok t) ↔ ∃ S k, Dict.get? d l = some S ∧ S.construct = .ok (some k) ∧ Renders k S := by
  unfold labelLatex
  cases h : Dict.get? d l with
  | none => simp [Dict.get, h, Bind.bind, Except.bind]
  | some S =>
    have := (pure_isOk (f := fun t : String => (l, t))).trans (C72_set_shown_iff latexF S)
    simpa [Dict.get, h, Bind.bind, Except.bind] using this

theorem actsPart_isOk (cert : CertType) (acts alt : List ActivationType) (ctrl : Option (List ActivationType)) :
    (∃ r, actsPart cert acts alt ctrl = .ok r) ↔ NamedActs acts ∧ (cert = .STABLESAFE ∨ cert = .RAR → NamedActs alt) ∧ (∀ l, ctrl = some l → NamedActs l) := by
  unfold actsPart
  rw [bind_isOk (P := (cert = .STABLESAFE ∨ cert = .RAR → NamedActs alt) ∧ (∀ l, ctrl = some l → NamedActs l)), activationNames_ok]
  · rfl
  · intro _ _
    rw [bind_isOk (P := ∀ l, ctrl = some l → NamedActs l)]
    · by_cases h : cert = .STABLESAFE ∨ cert = .RAR
      · simp only [if_pos h, activationNames_ok]
        simp [h, NamedActs]
      · simp [h]
    · intro _ _
      rw [pure_isOk]
      cases ctrl with
      | none => simp
      | some l => simp only [activationNames_ok]; simp [NamedActs]

theorem reprs_isOk (num : ℚ → String) (e : String × PySet) : (∃ t, reprEntry num e = .ok t) ↔ ¬ mentionsReals e.2 := by
  unfold reprEntry
  rw [pure_isOk]
  constructor
  · rintro ⟨t, h⟩ hr
    rw [(C65_prints_iff num e.2).2 hr] at h
    cases h
  · exact (C65_prints_iff num e.2).1

theorem shown_labels (c : CertType) (P : String → Prop) : (∀ l ∈ latexLabels c, P l) ↔ ∀ l ∈ shownSets c, P l := by
  cases c <;> simp [latexLabels, shownSets, XD, XI, XU, XS, XG, XF]

/-- **C72.** A run is recorded exactly if: the certificate is not a custom one; all activations (of the network, of the second network where there is one, of the
controller) have names; the list of control layers is absent or not empty; the four component times are there; the model can be written out (a model without
inputs has at least two variables); each set shown for the kind of certificate is given, has a dimension and can be written out; and `Reals` occurs in no set. -/
theorem C72_recorded_iff (ly : Layout2) (latexT : List Term → String) (latexF : Formula → String) (num : ℚ → String) (c : RecordCfg) (i : RunInfo) :
    (∃ row, fullRow ly latexT latexF num c i = .ok row) ↔
      i.cert ≠ .CUSTOM ∧ NamedActs i.acts ∧ (i.cert = .STABLESAFE ∨ i.cert = .RAR → NamedActs i.altActs) ∧ (i.ctrLayer ≠ none → NamedActs c.ctrlActs) ∧
      i.ctrLayer ≠ some [] ∧ 4 ≤ i.times.length ∧ ModelShown c.system ∧
      (∀ l ∈ shownSets i.cert, ∃ S k, Dict.get? c.domains l = some S ∧ S.construct = .ok (some k) ∧ Renders k S) ∧
      (∀ e ∈ c.domains, e.1 ≠ "goal_border" → e.1 ≠ "safe_border" → ¬ mentionsReals e.2) := by
  have hrow : ∀ l d m, (∃ row, recordRow { i with latex := l, domains := d, model := m } = .ok row) ↔ ∃ row, recordRow i = .ok row := by
    intro l d m
    rw [C41_recordable, C41_recordable]
  have hctrl : (∃ r, ctrlCells i = .ok r) ↔ i.ctrLayer ≠ some [] := by
    unfold ctrlCells
    cases h : i.ctrLayer with
    | none => simp
    | some l =>
      cases hl : l.getLast? with
      | none => simp [List.getLast?_eq_none_iff.1 hl]
      | some m =>
        have : l ≠ [] := by rintro rfl; simp at hl
        simp [this, hl]
  have halt : (∃ r, altCells i = .ok r) ↔ (i.cert = .STABLESAFE ∨ i.cert = .RAR → NamedActs i.altActs) := by
    unfold altCells
    by_cases h : i.cert = .STABLESAFE ∨ i.cert = .RAR
    · rw [if_pos h]
      have := activationNames_ok i.altActs
      cases ha : activationNames i.altActs with
      | ok a => rw [ha] at this; simpa [h, NamedActs] using this.1 ⟨a, rfl⟩
      | error e =>
        rw [ha] at this
        simp only [reduceCtorEq, exists_false, false_iff] at this ⊢
        exact fun hn => this (hn h)
    · rw [if_neg h]; simp [h]
  have hacts := actsPart_isOk i.cert i.acts i.altActs (i.ctrLayer.map fun _ => c.ctrlActs)
  have hlat : (∃ t, benchmarkLatex ly latexT latexF c i = .ok t) ↔ ModelShown c.system ∧
      (∀ l ∈ shownSets i.cert, ∃ S k, Dict.get? c.domains l = some S ∧ S.construct = .ok (some k) ∧ Renders k S) ∧
      (∃ r, actsPart i.cert i.acts i.altActs (i.ctrLayer.map fun _ => c.ctrlActs) = .ok r) := by
    unfold benchmarkLatex
    rw [bind_isOk (P := (∀ l ∈ shownSets i.cert, ∃ S k, Dict.get? c.domains l = some S ∧ S.construct = .ok (some k) ∧ Renders k S) ∧
      (∃ r, actsPart i.cert i.acts i.altActs (i.ctrLayer.map fun _ => c.ctrlActs) = .ok r)), systemLatex_isOk]
    intro _ _
    rw [bind_isOk (fun _ _ => pure_isOk), mapE_isOk, ← shown_labels]
    simp only [label_isOk]
  have hdom : (∃ t, domainsText ly latexT num c i = .ok t) ↔ ModelShown c.system ∧
      (∀ e ∈ c.domains, e.1 ≠ "goal_border" → e.1 ≠ "safe_border" → ¬ mentionsReals e.2) ∧
      (∃ r, actsPart i.cert i.acts i.altActs (i.ctrLayer.map fun _ => c.ctrlActs) = .ok r) := by
    unfold domainsText
    rw [bind_isOk (P := (∀ e ∈ c.domains, e.1 ≠ "goal_border" → e.1 ≠ "safe_border" → ¬ mentionsReals e.2) ∧
      (∃ r, actsPart i.cert i.acts i.altActs (i.ctrLayer.map fun _ => c.ctrlActs) = .ok r)), systemLatex_isOk]
    intro _ _
    rw [bind_isOk (fun _ _ => pure_isOk), mapE_isOk]
    simp only [reprs_isOk, List.mem_filter, decide_eq_true_eq, List.mem_cons, List.not_mem_nil, or_false, not_or, XGB, XSB, and_imp]
  have hc' : (∀ l, (i.ctrLayer.map fun _ => c.ctrlActs) = some l → NamedActs l) ↔ (i.ctrLayer ≠ none → NamedActs c.ctrlActs) := by
    cases i.ctrLayer <;> simp
  unfold fullRow
  rw [bind_isOk (P := (∃ r, altCells i = .ok r) ∧ (∃ t, benchmarkLatex ly latexT latexF c i = .ok t) ∧ (∃ t, domainsText ly latexT num c i = .ok t) ∧
    ∃ row, recordRow i = .ok row)]
  · rw [hctrl, halt, hlat, hdom, C41_recordable, hacts, hc']
    constructor
    · rintro ⟨h1, h2, ⟨h3, h4, h5, -, h6⟩, ⟨-, h7, -⟩, h8, -, -, -, h9⟩
      exact ⟨h8, h5, h2, h6, h1, h9, h3, h4, h7⟩
    · rintro ⟨h8, h5, h2, h6, h1, h9, h3, h4, h7⟩
      exact ⟨h1, h2, ⟨h3, h4, h5, h2, h6⟩, ⟨h3, h7, h5, h2, h6⟩, h8, h5, h2, h1, h9⟩
  · intro _ _
    refine bind_isOk fun _ _ => ?_
    refine bind_isOk fun _ _ => ?_
    exact bind_isOk fun _ _ => hrow _ _ _

/-- **C72.** A recorded series adds to the file, in order, one row for each repetition up to the first that cannot be recorded; there the series ends with an
exception, and neither that result nor any later repetition is recorded. Nothing else is written: if the first result cannot be recorded, the file stays as it
was (absent, if it was). -/
theorem C72_series (ly : Layout2) (latexT : List Term → String) (latexF : Formula → String) (num : ℚ → String) (c : RecordCfg) (runs : List RunInfo)
    (f : CsvFile (List Cell)) :
    ∃ rows : List (List Cell), List.Forall₂ (fun i row => fullRow ly latexT latexF num c i = .ok row) (runs.take rows.length) rows ∧
      (recordSeries ly latexT latexF num c f runs).1 = rows.foldl csvRecord f ∧
      (((recordSeries ly latexT latexF num c f runs).2 = none ∧ rows.length = runs.length) ∨
        ∃ i e, runs[rows.length]? = some i ∧ fullRow ly latexT latexF num c i = .error e ∧ (recordSeries ly latexT latexF num c f runs).2 = some e) := by
  induction runs generalizing f with
  | nil => exact ⟨[], .nil, rfl, Or.inl ⟨rfl, rfl⟩⟩
  | cons i is ih =>
    unfold recordSeries recordFile
    cases h : fullRow ly latexT latexF num c i with
    | error e => exact ⟨[], .nil, rfl, Or.inr ⟨i, e, rfl, h, rfl⟩⟩
    | ok row =>
      obtain ⟨rows, h1, h2, h3⟩ := ih (csvRecord f row)
      refine ⟨row :: rows, ?_, h2, ?_⟩
      · rw [List.length_cons, List.take_succ_cons]
        exact .cons h h1
      · rcases h3 with ⟨h3, h4⟩ | ⟨j, e, h3, h4, h5⟩
        · exact Or.inl ⟨h3, by rw [List.length_cons, List.length_cons, h4]⟩
        · exact Or.inr ⟨j, e, by rw [List.length_cons, List.getElem?_cons_succ]; exact h3, h4, h5⟩

theorem renders_of_wf {n : ℕ} {S : PySet} (h : WF n S) (hn : noEmpty S) (hr : noReals S) : Renders n S := by
  induction S with
  | rectangle lb ub ds | openRectangle lb ub ds => obtain ⟨h1, h2, -⟩ := h; exact ⟨h1.le, by omega⟩
  | sphere c r ds | openSphere c r ds => obtain ⟨h1, h2, -⟩ := h; exact ⟨h2, h1.ge⟩
  | torus c ro ri ds => obtain ⟨h1, h2, -⟩ := h; exact ⟨h2, h1.ge⟩
  | ellipse a c r ds => obtain ⟨h1, h2, h3, -⟩ := h; exact ⟨h3, h1.ge, h2.ge, Or.inr h2⟩
  | posSphere c r => exact h.1.le
  | bean c r => exact ⟨h.2, h.1⟩
  | empty => exact hn
  | reals d => exact hr
  | union S T ihS ihT | inter S T ihS ihT | setMinus S T ihS ihT =>
    exact ⟨ihS h.1 hn.1 hr.1, ihT h.2 hn.2 hr.2⟩
  | compl S ih => exact ih h hn hr

theorem construct_of_wf {n : ℕ} {S : PySet} (h : WF n S) (hn : noEmpty S) (hr : noReals S) (hs : unselected S) : S.construct = .ok (some n) := by
  have sel : ∀ {ds}, noSel ds → selCount n ds = n := by
    rintro ds (rfl | rfl) <;> rfl
  induction S with
  | rectangle lb ub ds | openRectangle lb ub ds => simp [PySet.construct, h.1]
  | sphere c r ds | openSphere c r ds => simp [PySet.construct, h.1, sel hs]
  | ellipse a c r ds => simp [PySet.construct, h.1, sel hs]
  | torus c ro ri ds => simp [PySet.construct, h.1, sel hs, h.2.2.2]
  | posSphere c r => simp [PySet.construct, h.1]
  | bean c r => simp [PySet.construct, h.1, h.2]
  | empty => exact hn.elim
  | reals d => exact hr.elim
  | union S T ihS ihT | inter S T ihS ihT | setMinus S T ihS ihT =>
    simp [PySet.construct, ihS h.1 hn.1 hr.1 hs.1, ihT h.2 hn.2 hr.2 hs.2, Bind.bind, Except.bind, pure, Except.pure]
  | compl S ih => simp [PySet.construct, ih h hn hr hs, Bind.bind, Except.bind, pure, Except.pure]

theorem mentionsReals_iff (S : PySet) : mentionsReals S ↔ ¬ noReals S := by
  induction S with
  | union S T ihS ihT | inter S T ihS ihT | setMinus S T ihS ihT =>
    constructor
    · rintro (h | h) ⟨h1, h2⟩
      · exact ihS.1 h h1
      · exact ihT.1 h h2
    · intro h
      by_cases h1 : noReals S
      · exact Or.inr (ihT.2 fun h2 => h ⟨h1, h2⟩)
      · exact Or.inl (ihS.2 h1)
  | compl S ih => exact ih
  | reals d => simp [mentionsReals, noReals]
  | _ => simp [mentionsReals, noReals]

/-- **C72.** The usual case is recorded: a model that can be written out, named activations, the sets of the certificate given, and all sets well-formed in the
state dimension, without `EmptySet`, `Reals` and selections of dimensions. -/
theorem C72_usual_recorded (ly : Layout2) (latexT : List Term → String) (latexF : Formula → String) (num : ℚ → String) (c : RecordCfg) (i : RunInfo) (n : ℕ)
    (hcert : i.cert ≠ .CUSTOM) (hacts : NamedActs i.acts) (halt : NamedActs i.altActs) (hctrl : NamedActs c.ctrlActs) (hlayer : i.ctrLayer ≠ some [])
    (htimes : 4 ≤ i.times.length) (hmodel : ModelShown c.system) (hgiven : ∀ l ∈ shownSets i.cert, ∃ S, Dict.get? c.domains l = some S)
    (hsets : ∀ e ∈ c.domains, WF n e.2 ∧ noEmpty e.2 ∧ noReals e.2 ∧ unselected e.2) :
    ∃ row, fullRow ly latexT latexF num c i = .ok row := by
  refine (C72_recorded_iff ly latexT latexF num c i).2 ⟨hcert, hacts, fun _ => halt, fun _ => hctrl, hlayer, htimes, hmodel, ?_, ?_⟩
  · intro l hl
    obtain ⟨S, hS⟩ := hgiven l hl
    obtain ⟨h1, h2, h3, h4⟩ := hsets _ (Dict.get?_eq_some_mem hS)
    exact ⟨S, n, hS, construct_of_wf h1 h2 h3 h4, renders_of_wf h1 h2 h3⟩
  · intro e he _ _ hr
    exact (mentionsReals_iff e.2).1 hr (hsets e he).2.2.1

/-- **C72, lost results.** No run of a model without inputs in one variable is ever recorded; nor is any stability run on a domain that is a strip of the plane
(`Sphere([0], 1, dim_select=[1])`, a set synthesis accepts), nor any run whose controller uses a shifted softplus. -/
theorem C72_lost (ly : Layout2) (latexT : List Term → String) (latexF : Formula → String) (num : ℚ → String) (c : RecordCfg) (i : RunInfo) :
    ((∃ name smt, c.system = .plain name 1 smt) → ¬ ∃ row, fullRow ly latexT latexF num c i = .ok row) ∧
    (i.cert = .LYAPUNOV → Dict.get? c.domains "lie" = some (.sphere [0] 1 (some [1])) →
      WF 2 (.sphere [0] 1 (some [1])) ∧ ¬ ∃ row, fullRow ly latexT latexF num c i = .ok row) ∧
    (i.ctrLayer ≠ none → .SHIFTED_SOFTPLUS ∈ c.ctrlActs → ¬ ∃ row, fullRow ly latexT latexF num c i = .ok row) := by
  refine ⟨?_, fun hc hd => ⟨by simp [WF, selCount, selOk], ?_⟩, fun hl hm => ?_⟩
  · rintro ⟨name, smt, hs⟩ h
    have := ((C72_recorded_iff ly latexT latexF num c i).1 h).2.2.2.2.2.2.1
    rw [hs] at this
    exact absurd this.1 (by decide)
  · intro h
    obtain ⟨S, k, h1, h2, h3⟩ := ((C72_recorded_iff ly latexT latexF num c i).1 h).2.2.2.2.2.2.2.1 "lie" (by rw [hc]; simp [shownSets])
    rw [hd] at h1
    cases h1
    simp only [PySet.construct, Except.ok.injEq, Option.some.injEq, List.length_singleton] at h2
    subst h2
    exact absurd (h3.1 1 (by simp)) (by decide)
  · intro h
    exact (((C72_recorded_iff ly latexT latexF num c i).1 h).2.2.2.1 hl _ hm).1 rfl

/-- A stability run on the unit disc for a rotation. -/
def exRecordCfg : RecordCfg := ⟨.plain "Linear0" 2 fun v => match v with | [x, y] => .ok [.sub (.neg x) y, x] | _ => .error .valueError,
  [(XD, .sphere [0, 0] 1 none)], []⟩

def exRecordInfo : RunInfo where
  cert := .LYAPUNOV
  nVars := 2
  ctrLayer := none
  ctrlActs := []
  res := true
  model := ""
  seed := 167
  latex := ""
  domains := ""
  nData := 500
  neurons := [5]
  acts := [.SQUARE]
  altNeurons := []
  altActs := []
  factors := "NONE"
  llo := true
  belt := false
  timeDomain := "CONTINUOUS"
  verifier := "Z3"
  loops := 3
  total := 2
  times := [1, 1/10, 1/10, 1/10]

/-- It is recorded. -/
example (ly : Layout2) (latexT : List Term → String) (latexF : Formula → String) (num : ℚ → String) :
    ∃ row, fullRow ly latexT latexF num exRecordCfg exRecordInfo = .ok row := by
  refine C72_usual_recorded ly latexT latexF num _ _ 2 (by simp [exRecordInfo]) ?_ ?_ ?_ ?_ ?_ ?_ ?_ ?_
  · intro a ha; simp [exRecordInfo] at ha; subst ha; exact ⟨by decide, by decide⟩
  · intro a ha; simp [exRecordInfo] at ha
  · intro a ha; simp [exRecordCfg] at ha
  · simp [exRecordInfo]
  · simp [exRecordInfo]
  · exact ⟨le_refl 2, _, rfl⟩
  · intro l hl
    simp [exRecordInfo, shownSets] at hl
    subst hl
    exact ⟨_, rfl⟩
  · intro e he
    simp [exRecordCfg] at he
    subst he
    simp [WF, noEmpty, noReals, unselected, noSel, selCount, selOk]

/-- Hypotheses of the lost cases hold of variants of it. -/
example : (∃ name smt, (SystemArg.plain "M" 1 fun v => .ok v) = .plain name 1 smt) ∧
    Dict.get? ([(XD, .sphere [0] 1 (some [1]))] : Dict String PySet) "lie" = some (.sphere [0] 1 (some [1])) := ⟨⟨_, _, rfl⟩, by decide⟩

end Fossil

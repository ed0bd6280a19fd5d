/-
C70: which networks a solver can be given.
-/
import Verif.Props.C49_Training
import Verif.Assembly
import Verif.Props.C23_Boundary
import Verif.Props.C57_Construct
import Verif.Props.C16_RAR
import Verif.Props.C27_Cegis
import Verif.Props.C30_Consolidator
import Verif.Props.C69_Freeze

namespace Fossil
open Spec

namespace Spec

/-- The activations that can be translated for a solver: polynomials for all; ReLU for the solvers with a conditional; tanh where there is
a tanh or an exponential; sigmoid where there is an exponential; softplus and cosh for dReal only. -/
def supportsAct : Lib → Act → Bool
  | .z3, .relu | .dreal, .relu | .cvc5, .relu => true
  | .dreal, .tanh | .cvc5, .tanh | .dreal, .tanhSquared | .cvc5, .tanhSquared => true
  | .dreal, .sigmoid | .cvc5, .sigmoid | .sympy, .sigmoid => true
  | .dreal, .softplus | .dreal, .shiftedSoftplus | .dreal, .shiftedSoftplusSquare | .dreal, .cosh => true
  | _, .identity | _, .square | _, .poly2 | _, .polyN _ | _, .evenPolyN _ => true
  | _, _ => false

/-- The activations of the hidden layers (the constructor accepts a longer list). -/
def usedActs (net : Net) : List Act := net.acts.take (net.layers.length - 1)

end Spec

/-- The errors of an unsupported activation: the key is missing from the table of functions, or a dReal function is applied to another expression. -/
def IsUnsupported (e : Err) : Prop := e = .keyError ∨ e = .typeError

theorem forwardSym_total (lib : Lib) (a : Act) (x : List Term) :
    (supportsAct lib a = true → ∃ y, a.forwardSym lib x = .ok y ∧ y.length = x.length) ∧
    (supportsAct lib a = false → ∃ e, a.forwardSym lib x = .error e ∧ IsUnsupported e) := by
  cases a with
  | poly2 => refine ⟨fun _ => ⟨_, rfl, ?_⟩, fun h => by cases lib <;> cases h⟩; simp; omega
  | polyN n => exact ⟨fun _ => ⟨_, rfl, by rw [polyCat_parts]; simp⟩, fun h => by cases lib <;> cases h⟩
  | evenPolyN n => exact ⟨fun _ => ⟨_, rfl, by rw [polyCat_parts]; simp⟩, fun h => by cases lib <;> cases h⟩
  | _ =>
    cases lib <;> first
      | exact ⟨fun _ => ⟨_, rfl, by simp⟩, fun h => by cases h⟩
      | exact ⟨fun h => (by cases h), fun _ => ⟨.keyError, rfl, Or.inl rfl⟩⟩
      | exact ⟨fun h => (by cases h), fun _ => ⟨.typeError, rfl, Or.inr rfl⟩⟩

theorem derivativeSym_total (lib : Lib) (a : Act) (x : List Term) (h : supportsAct lib a = true) :
    ∃ y, a.derivativeSym lib x = .ok y ∧ y.length = x.length := by
  cases a with
  | poly2 => refine ⟨_, rfl, ?_⟩; simp; omega
  | polyN n => exact ⟨_, rfl, by rw [polyCat_parts]; simp⟩
  | evenPolyN n => exact ⟨_, rfl, by rw [polyCat_parts]; simp⟩
  | _ => cases lib <;> first | exact ⟨_, rfl, by simp⟩ | (cases h; done)

theorem matVec_total (w : List (List ℚ)) (z : List Term) (h : ∀ r ∈ w, r.length = z.length) : ∃ y, matVec w z = .ok y ∧ y.length = w.length := by
  unfold matVec
  rw [if_pos (by simpa using h)]
  exact ⟨_, rfl, by simp⟩

theorem matJac_total (n : ℕ) (w : List (List ℚ)) (J : List (List Term)) (h : ∀ r ∈ w, r.length = J.length) :
    ∃ K, matJac n w J = .ok K ∧ K.length = w.length ∧ ∀ row ∈ K, row.length = n := by
  unfold matJac
  rw [if_pos (by simpa using h)]
  refine ⟨_, rfl, by simp, ?_⟩
  intro row hr
  obtain ⟨r, -, rfl⟩ := List.mem_map.1 hr
  simp

theorem addBias_total (z : List Term) (b : List ℚ) (h : z.length = b.length) : ∃ y, addBias z b = .ok y ∧ y.length = z.length := by
  unfold addBias
  rw [if_pos h]
  exact ⟨_, rfl, by simp [h]⟩

theorem hiddenBias_length (rnd : ℤ) (l : Layer) (h : ∀ b, l.bias = some b → b.length = l.weight.length) : (hiddenBias rnd l).length = l.weight.length := by
  unfold hiddenBias
  cases hb : l.bias with
  | none => simp
  | some b => simp [h b hb]

/-- The affine part of a hidden layer. -/
theorem affine_total (rnd : ℤ) (l : Layer) (z : List Term) (h1 : ∀ r ∈ l.weight, r.length = z.length)
    (h2 : ∀ b, l.bias = some b → b.length = l.weight.length) :
    ∃ zw zh, matVec (l.weight.map (fun r => r.map (roundBy rnd))) z = .ok zw ∧ addBias zw (hiddenBias rnd l) = .ok zh ∧ zh.length = l.weight.length := by
  obtain ⟨zw, e1, l1⟩ := matVec_total (l.weight.map (fun r => r.map (roundBy rnd))) z (by
    intro r hr
    obtain ⟨r', hr', rfl⟩ := List.mem_map.1 hr
    simpa using h1 r' hr')
  rw [List.length_map] at l1
  obtain ⟨zh, e2, l2⟩ := addBias_total zw (hiddenBias rnd l) (by rw [l1, hiddenBias_length rnd l h2])
  exact ⟨zw, zh, e1, e2, l2.trans l1⟩

theorem untilLastCT_total (lib : Lib) (rnd : ℤ) (n : ℕ) : ∀ (ls : List Layer) (as : List Act) (z : List Term) (J : List (List Term)),
    shapedFrom z.length ls → ls.length ≤ as.length → J.length = z.length → (∀ row ∈ J, row.length = n) →
    ((∀ a ∈ as.take ls.length, supportsAct lib a = true) → ∃ z' J', untilLastCT lib rnd n ls as z J = .ok (z', J') ∧
      z'.length = outWidth z.length ls ∧ J'.length = outWidth z.length ls ∧ ∀ row ∈ J', row.length = n) ∧
    ((∃ a ∈ as.take ls.length, supportsAct lib a = false) → ∃ e, untilLastCT lib rnd n ls as z J = .error e ∧ IsUnsupported e) := by
  intro ls
  induction ls with
  | nil =>
    intro as z J _ _ hJ hr
    refine ⟨fun _ => ⟨z, J, by simp [untilLastCT], rfl, hJ, hr⟩, ?_⟩
    rintro ⟨a, ha, -⟩
    simp at ha
  | cons l ls ih =>
    intro as z J hs hl hJ hr
    cases as with
    | nil => simp at hl
    | cons a as =>
      obtain ⟨h1, h2, h3⟩ := hs
      obtain ⟨zw, zh, e1, e2, l2⟩ := affine_total rnd l z h1 h2
      obtain ⟨K, e3, l3, r3⟩ := matJac_total n (l.weight.map (fun r => r.map (roundBy rnd))) J (by
        intro r hr
        obtain ⟨r', hr', rfl⟩ := List.mem_map.1 hr
        rw [hJ]
        simpa using h1 r' hr')
      rw [List.length_map] at l3
      simp only [List.length_cons, List.take_succ_cons, List.mem_cons, forall_eq_or_imp, exists_eq_or_imp]
      cases hsup : supportsAct lib a with
      | false =>
        obtain ⟨e, he, hu⟩ := (forwardSym_total lib a zh).2 hsup
        refine ⟨fun h => absurd h.1 (by simp), fun _ => ⟨e, ?_, hu⟩⟩
        simp only [untilLastCT, e1, e2, he, Bind.bind, Except.bind]
      | true =>
        obtain ⟨z', he, hz⟩ := (forwardSym_total lib a zh).1 hsup
        obtain ⟨d, hd, ld⟩ := derivativeSym_total lib a zh hsup
        have hJl : (diagJac d K).length = z'.length := by simp [diagJac, ld, l3, hz, l2]
        have hJr : ∀ row ∈ diagJac d K, row.length = n := by
          intro row hrow
          obtain ⟨i, hi, rfl⟩ := List.getElem_of_mem hrow
          simp only [diagJac, List.getElem_zipWith, List.length_map]
          exact r3 _ (List.getElem_mem _)
        have hw : z'.length = l.weight.length := by rw [hz, l2]
        obtain ⟨ih1, ih2⟩ := ih as z' (diagJac d K) (by rw [hw]; exact h3) (by simpa using hl) hJl hJr
        have hstep : untilLastCT lib rnd n (l :: ls) (a :: as) z J = untilLastCT lib rnd n ls as z' (diagJac d K) := by
          simp only [untilLastCT, e1, e2, e3, he, hd, Bind.bind, Except.bind]
        rw [hstep]
        refine ⟨fun h => ?_, fun h => ?_⟩
        · obtain ⟨y, K', a1, a2, a3, a4⟩ := ih1 h.2
          exact ⟨y, K', a1, by rw [a2, hw]; rfl, by rw [a3, hw]; rfl, a4⟩
        · rcases h with h | h
          · cases h
          · exact ih2 h

theorem untilLastDT_total (lib : Lib) (rnd : ℤ) (hrnd : rnd ≠ 0) : ∀ (ls : List Layer) (as : List Act) (z : List Term),
    shapedFrom z.length ls → ls.length ≤ as.length →
    ((∀ a ∈ as.take ls.length, supportsAct lib a = true) → ∃ z', untilLastDT lib rnd ls as z = .ok z' ∧ z'.length = outWidth z.length ls) ∧
    ((∃ a ∈ as.take ls.length, supportsAct lib a = false) → ∃ e, untilLastDT lib rnd ls as z = .error e ∧ IsUnsupported e) := by
  intro ls
  induction ls with
  | nil =>
    intro as z _ _
    refine ⟨fun _ => ⟨z, by simp [untilLastDT], rfl⟩, ?_⟩
    rintro ⟨a, ha, -⟩
    simp at ha
  | cons l ls ih =>
    intro as z hs hl
    cases as with
    | nil => simp at hl
    | cons a as =>
      obtain ⟨h1, h2, h3⟩ := hs
      obtain ⟨zw, zh, e1, e2, l2⟩ := affine_total rnd l z h1 h2
      simp only [List.length_cons, List.take_succ_cons, List.mem_cons, forall_eq_or_imp, exists_eq_or_imp]
      cases hsup : supportsAct lib a with
      | false =>
        obtain ⟨e, he, hu⟩ := (forwardSym_total lib a zh).2 hsup
        refine ⟨fun h => absurd h.1 (by simp), fun _ => ⟨e, ?_, hu⟩⟩
        simp only [untilLastDT, if_neg hrnd, e1, e2, he, Bind.bind, Except.bind, pure, Except.pure]
      | true =>
        obtain ⟨z', he, hz⟩ := (forwardSym_total lib a zh).1 hsup
        have hw : z'.length = l.weight.length := by rw [hz, l2]
        obtain ⟨ih1, ih2⟩ := ih as z' (by rw [hw]; exact h3) (by simpa using hl)
        have hstep : untilLastDT lib rnd (l :: ls) (a :: as) z = untilLastDT lib rnd ls as z' := by
          simp only [untilLastDT, if_neg hrnd, e1, e2, he, Bind.bind, Except.bind, pure, Except.pure]
        rw [hstep]
        refine ⟨fun h => ?_, fun h => ?_⟩
        · obtain ⟨y, a1, a2⟩ := ih1 h.2
          exact ⟨y, a1, by rw [a2, hw]; rfl⟩
        · rcases h with h | h
          · cases h
          · exact ih2 h

theorem lastAffine_total (rnd : ℤ) (last : Layer) (z : List Term) (h1 : ∀ r ∈ last.weight, r.length = z.length)
    (h2 : ∀ b, last.bias = some b → b.length = last.weight.length) : ∃ y, lastAffine rnd last z = .ok y ∧ y.length = last.weight.length := by
  obtain ⟨zw, e1, l1⟩ := matVec_total (last.weight.map (fun r => r.map (roundBy rnd))) z (by
    intro r hr
    obtain ⟨r', hr', rfl⟩ := List.mem_map.1 hr
    simpa using h1 r' hr')
  rw [List.length_map] at l1
  unfold lastAffine
  rw [e1]
  cases hb : last.bias with
  | none => exact ⟨zw, rfl, l1⟩
  | some b =>
    obtain ⟨y, e2, l2⟩ := addBias_total zw b (by rw [l1, h2 b hb])
    exact ⟨y, e2, l2.trans l1⟩

/-- The layers of a network that fits together: hidden layers and the output layer. -/
theorem shaped_split {n : ℕ} {net : Net} (h : Shaped n net) : ∃ last, net.layers.getLast? = some last ∧ last.weight.length = 1 ∧
    shapedFrom n net.layers.dropLast ∧ (∀ r ∈ last.weight, r.length = outWidth n net.layers.dropLast) ∧
    (∀ b, last.bias = some b → b.length = last.weight.length) ∧ net.layers.dropLast.length ≤ net.acts.length ∧
    net.acts.take net.layers.dropLast.length = usedActs net := by
  obtain ⟨last, hl, h1⟩ := h.out
  have hf := h.fit
  have hcat : net.layers = net.layers.dropLast ++ [last] := by
    rw [List.getLast?_eq_some_iff] at hl
    obtain ⟨ys, hys⟩ := hl
    rw [hys]; simp
  rw [hcat, shapedFrom_concat] at hf
  refine ⟨last, hl, h1, hf.1, hf.2.1, hf.2.2, ?_, ?_⟩
  · have := h.acts; simp; omega
  · simp [usedActs]

/-- **C70 (continuous time).** A network whose layers fit together can be translated for a solver exactly if the solver supports all its hidden
activations; otherwise the translation raises a KeyError or TypeError. Nothing else can go wrong, for any weights, rounding and dynamics. -/
theorem C70_translates_iff (lib : Lib) (rnd : ℤ) (post : ArithPost) (quad : Bool) (n : ℕ) (net : Net) (h : Shaped n net) (xdot : List Term)
    (hx : xdot.length = n) :
    ((∀ a ∈ usedActs net, supportsAct lib a = true) → ∃ V Vdot, translateCT lib rnd post quad net (vars n) xdot = .ok (V, Vdot)) ∧
    ((∃ a ∈ usedActs net, supportsAct lib a = false) → ∃ e, translateCT lib rnd post quad net (vars n) xdot = .error e ∧ IsUnsupported e) := by
  obtain ⟨last, hl, h1, hs, hr, hb, ha, hu⟩ := shaped_split h
  have hvl : (vars n).length = n := by simp [vars]
  obtain ⟨t1, t2⟩ := untilLastCT_total lib rnd n net.layers.dropLast net.acts (vars n) (eyeJac n) (by rw [hvl]; exact hs) ha (by simp [eyeJac, hvl])
    (by intro row hrow; simp only [eyeJac, List.mem_map] at hrow; obtain ⟨i, -, rfl⟩ := hrow; simp)
  rw [hu, hvl] at t1
  rw [hu] at t2
  unfold translateCT
  simp only [hl, h.input]
  constructor
  · intro hsup
    obtain ⟨z, J, e1, l1, l2, r2⟩ := t1 hsup
    obtain ⟨zo, e2, l3⟩ := lastAffine_total rnd last z (by rw [l1]; exact hr) hb
    obtain ⟨Jo, e3, l4, r4⟩ := matJac_total n (last.weight.map (fun r => r.map (roundBy rnd))) J (by
      intro r hr'
      obtain ⟨r', hr'', rfl⟩ := List.mem_map.1 hr'
      rw [l2]
      simpa using hr r' hr'')
    rw [List.length_map, h1] at l4
    rw [h1] at l3
    obtain ⟨z0, rfl⟩ := List.length_eq_one_iff.1 l3
    obtain ⟨g, rfl⟩ := List.length_eq_one_iff.1 l4
    simp only [e1, e2, e3, assembleCT]
    rw [if_pos]
    · exact ⟨_, _, rfl⟩
    · have hg : g.length = n := r4 g (by simp)
      have hf : (factors quad (vars n)).2.length = n := by cases quad <;> simp [factors, hvl]
      rw [hx]
      cases post with
      | none => simp [postGrad, gradTerms, hg, hf]
      | some r =>
        simp only [postGrad]
        have : ∀ l : List Term, (mapHead r l).length = l.length := by intro l; cases l <;> simp [mapHead]
        rw [this]
        simp [gradTerms, hg, hf]
  · intro hno
    obtain ⟨e, he, hu⟩ := t2 hno
    exact ⟨e, by simp only [he], hu⟩

/-- **C70 (discrete time).** The same for discrete time, unless weights are rounded to no decimals: then a network with a hidden layer is never
translated (`NameError`), whatever the solver. -/
theorem C70_translates_iff_dt (lib : Lib) (rnd : ℤ) (quad : Bool) (n : ℕ) (net : Net) (h : Shaped n net) (xdot : List Term) (hx : xdot.length = n) :
    (rnd ≠ 0 → (∀ a ∈ usedActs net, supportsAct lib a = true) → ∃ V dV, translateDT lib rnd quad net (vars n) xdot = .ok (V, dV)) ∧
    (rnd ≠ 0 → (∃ a ∈ usedActs net, supportsAct lib a = false) → ∃ e, translateDT lib rnd quad net (vars n) xdot = .error e ∧ IsUnsupported e) ∧
    (rnd = 0 → 2 ≤ net.layers.length → translateDT lib rnd quad net (vars n) xdot = .error .nameError) := by
  obtain ⟨last, hl, h1, hs, hr, hb, ha, hu⟩ := shaped_split h
  have hvl : (vars n).length = n := by simp [vars]
  unfold translateDT
  simp only [hl]
  refine ⟨fun hrnd hsup => ?_, fun hrnd hno => ?_, fun hrnd hlen => ?_⟩
  · obtain ⟨t1, -⟩ := untilLastDT_total lib rnd hrnd net.layers.dropLast net.acts (vars n) (by rw [hvl]; exact hs) ha
    obtain ⟨u1, -⟩ := untilLastDT_total lib rnd hrnd net.layers.dropLast net.acts xdot (by rw [hx]; exact hs) ha
    obtain ⟨z, e1, l1⟩ := t1 (by rw [hu]; exact hsup)
    obtain ⟨zn, e2, l2⟩ := u1 (by rw [hu]; exact hsup)
    obtain ⟨z0, e3, l3⟩ := lastAffine_total rnd last z (by rw [l1, hvl]; exact hr) hb
    obtain ⟨zn0, e4, l4⟩ := lastAffine_total rnd last zn (by rw [l2, hx]; exact hr) hb
    rw [h1] at l3 l4
    obtain ⟨a, rfl⟩ := List.length_eq_one_iff.1 l3
    obtain ⟨b, rfl⟩ := List.length_eq_one_iff.1 l4
    simp only [Bind.bind, Except.bind, e1, e2, e3, e4]
    split
    · exact ⟨_, _, rfl⟩
    · exact ⟨_, _, rfl⟩
  · obtain ⟨-, t2⟩ := untilLastDT_total lib rnd hrnd net.layers.dropLast net.acts (vars n) (by rw [hvl]; exact hs) ha
    obtain ⟨e, he, hu'⟩ := t2 (by rw [hu]; exact hno)
    exact ⟨e, by simp only [Bind.bind, Except.bind, he], hu'⟩
  · have : untilLastDT lib rnd net.layers.dropLast net.acts (vars n) = .error .nameError := by
      have hd : net.layers.dropLast ≠ [] := by
        intro h0
        have := congrArg List.length h0
        simp at this
        omega
      obtain ⟨l, ls, hls⟩ := List.exists_cons_of_ne_nil hd
      rw [hls] at ha ⊢
      cases has : net.acts with
      | nil => rw [has] at ha; simp at ha
      | cons a as => simp [untilLastDT, hrnd, Bind.bind, Except.bind]
    simp only [this, Bind.bind, Except.bind]

/-- **C70 (two networks).** -/
theorem C70_translates_iff_double (lib : Lib) (rnd : ℤ) (post : ArithPost) (n : ℕ) (lyap barr : Net) (h : Shaped n lyap) (h' : Shaped n barr)
    (xdot : List Term) (hx : xdot.length = n) :
    (∃ r, translateCTDouble lib rnd post lyap barr (vars n) xdot = .ok r) ↔ ∀ a ∈ usedActs lyap ++ usedActs barr, supportsAct lib a = true := by
  obtain ⟨a1, a2⟩ := C70_translates_iff lib rnd post false n lyap h xdot hx
  obtain ⟨b1, b2⟩ := C70_translates_iff lib rnd post false n barr h' xdot hx
  have hall : ∀ l : List Act, (∀ a ∈ l, supportsAct lib a = true) ∨ ∃ a ∈ l, supportsAct lib a = false := by
    intro l
    by_cases hl : ∀ a ∈ l, supportsAct lib a = true
    · exact Or.inl hl
    · push Not at hl
      obtain ⟨a, ha, hb⟩ := hl
      exact Or.inr ⟨a, ha, by simpa using hb⟩
  constructor
  · rintro ⟨r, hr⟩
    obtain ⟨V, hV, hr⟩ := except_bind_ok hr
    obtain ⟨B, hB, hr⟩ := except_bind_ok hr
    intro a ha
    rcases List.mem_append.1 ha with ha | ha
    · rcases hall (usedActs lyap) with hl | hl
      · exact hl a ha
      · obtain ⟨e, he, -⟩ := a2 hl
        rw [he] at hV; cases hV
    · rcases hall (usedActs barr) with hl | hl
      · exact hl a ha
      · obtain ⟨e, he, -⟩ := b2 hl
        rw [he] at hB; cases hB
  · intro h
    obtain ⟨V, Vdot, hV⟩ := a1 fun a ha => h a (List.mem_append.2 (Or.inl ha))
    obtain ⟨B, Bdot, hB⟩ := b1 fun a ha => h a (List.mem_append.2 (Or.inr ha))
    exact ⟨_, by simp only [translateCTDouble, hV, hB, Bind.bind, Except.bind]; rfl⟩

/-! ### the whole verification step -/

namespace Spec

/-- The sets a certificate's conditions mention. -/
def setsOf : CertType → List String
  | .LYAPUNOV => [XD]
  | .ROA => [XI]
  | .BARRIER | .BARRIERALT | .STABLESAFE => [XD, XI, XU]
  | .RWA | .RWS | .RSWA | .RSWS => [XD, XI, XS, XSB, XG]
  | .RAR => [XD, XI, XS, XSB, XG, XF]
  | .CUSTOM => []

/-- The sets of a problem can be given to z3 or dReal: their parameters fit the dimension, and those used as borders have a boundary formula. -/
def UsableSets (n : ℕ) (domains : Dict String PySet) : Prop :=
  ∀ e ∈ domains, WF n e.2 ∧ (isBorder e.1 = true → BoundaryOK e.2)

end Spec

theorem domainEntries_total {lib : Lib} (hlib : lib = .z3 ∨ lib = .dreal) {n : ℕ} : ∀ {domains : Dict String PySet}, UsableSets n domains →
    ∃ d, domainEntries lib n domains = .ok d := by
  intro domains
  induction domains with
  | nil => intro _; exact ⟨[], rfl⟩
  | cons e rest ih =>
    intro h
    obtain ⟨l, S⟩ := e
    obtain ⟨hw, hb⟩ := h (l, S) List.mem_cons_self
    obtain ⟨d, hd⟩ := ih fun e he => h e (List.mem_cons_of_mem _ he)
    have hφ : ∃ φ, domainFormula lib n l S = .ok φ := by
      unfold domainFormula
      by_cases hl : isBorder l = true
      · rw [if_pos hl]
        obtain ⟨φ, hφ, -⟩ := C23_boundary_formula_covers_frontier lib hlib n S hw (hb hl)
        exact ⟨φ, hφ⟩
      · rw [if_neg hl]
        exact (C57_library_support lib n S hw).1.2 (by rcases hlib with rfl | rfl <;> trivial)
    obtain ⟨φ, hφ⟩ := hφ
    exact ⟨(l, φ) :: d, by simp only [domainEntries, hφ, hd]⟩

theorem entry_of_key {lib : Lib} {n : ℕ} {domains : Dict String PySet} {d : Dict String Formula} (h : domainEntries lib n domains = .ok d) {l : String}
    (hl : ∃ S, Dict.get? domains l = some S) : ∃ φ, Dict.getE d l = .ok φ := by
  obtain ⟨S, hS⟩ := hl
  have := domainEntries_get h l
  rw [hS] at this
  obtain ⟨φ, -, h2⟩ := this
  exact ⟨φ, getE_ok.2 h2⟩

theorem single_constraints_total (lib : Lib) (n : ℕ) (cert : CertType) (llo : Bool) (beta : ℚ) (domains : Dict String PySet) (hlib : lib = .z3 ∨ lib = .dreal)
    (hc : cert ≠ .STABLESAFE ∧ cert ≠ .RAR ∧ cert ≠ .CUSTOM) (hsets : UsableSets n domains) (hlab : ∀ l ∈ setsOf cert, ∃ S, Dict.get? domains l = some S) :
    ∃ d, initialiseDomains lib n cert domains = .ok d ∧ ∀ V Vdot, ∃ groups, singleConstraints cert n llo beta d V Vdot = .ok groups := by
  obtain ⟨d, hd⟩ := domainEntries_total hlib hsets
  have hi : initialiseDomains lib n cert domains = .ok d := by
    unfold initialiseDomains
    rw [hd]
    simp only [if_neg hc.2.1]
  refine ⟨d, hi, ?_⟩
  intro V Vdot
  have hk := fun l hl => entry_of_key hd (hlab l hl)
  cases hct : cert with
  | STABLESAFE => exact absurd hct hc.1
  | RAR => exact absurd hct hc.2.1
  | CUSTOM => exact absurd hct hc.2.2
  | LYAPUNOV =>
    rw [hct] at hk
    obtain ⟨a, ha⟩ := hk XD (by simp [setsOf])
    simp only [singleConstraints, lyapunovConstraints, ha, Bind.bind, Except.bind]
    exact ⟨_, rfl⟩
  | ROA =>
    rw [hct] at hk
    obtain ⟨a, ha⟩ := hk XI (by simp [setsOf])
    simp only [singleConstraints, roaConstraints, ha, Bind.bind, Except.bind]
    exact ⟨_, rfl⟩
  | BARRIER =>
    rw [hct] at hk
    obtain ⟨a, ha⟩ := hk XD (by simp [setsOf])
    obtain ⟨b, hb⟩ := hk XI (by simp [setsOf])
    obtain ⟨c, hc⟩ := hk XU (by simp [setsOf])
    simp only [singleConstraints, barrierConstraints, ha, hb, hc, Bind.bind, Except.bind]
    exact ⟨_, rfl⟩
  | BARRIERALT =>
    rw [hct] at hk
    obtain ⟨a, ha⟩ := hk XD (by simp [setsOf])
    obtain ⟨b, hb⟩ := hk XI (by simp [setsOf])
    obtain ⟨c, hc⟩ := hk XU (by simp [setsOf])
    simp only [singleConstraints, barrierAltConstraints, ha, hb, hc, Bind.bind, Except.bind]
    exact ⟨_, rfl⟩
  | RWA | RWS | RSWA | RSWS =>
    rw [hct] at hk
    obtain ⟨a, ha⟩ := hk XD (by simp [setsOf])
    obtain ⟨b, hb⟩ := hk XI (by simp [setsOf])
    obtain ⟨c, hc⟩ := hk XS (by simp [setsOf])
    obtain ⟨e, he⟩ := hk XSB (by simp [setsOf])
    obtain ⟨g, hg⟩ := hk XG (by simp [setsOf])
    simp only [singleConstraints, rwsConstraints, ha, hb, hc, he, hg, Bind.bind, Except.bind]
    exact ⟨_, rfl⟩

/-- **C70 (queries, one network).** With z3 or dReal, if the sets of the certificate are given and usable, the network fits together and its
activations are supported, then the violation queries exist — for any weights, rounding, dynamics of the right dimension, level. -/
theorem C70_queries_exist (s : Setup) (hlib : s.lib = .z3 ∨ s.lib = .dreal) (hc : s.cert ≠ .STABLESAFE ∧ s.cert ≠ .RAR ∧ s.cert ≠ .CUSTOM)
    (hsets : UsableSets s.nVars s.domains) (hlab : ∀ l ∈ setsOf s.cert, ∃ S, Dict.get? s.domains l = some S)
    (hnet : Shaped s.nVars s.net) (hsup : ∀ a ∈ usedActs s.net, supportsAct s.lib a = true) (hf : s.f.length = s.nVars) :
    (∃ groups, queriesCT s = .ok groups) ∧ (s.rounding ≠ 0 → ∃ groups, queriesDT s = .ok groups) := by
  obtain ⟨d, hi, hsc⟩ := single_constraints_total s.lib s.nVars s.cert s.llo s.beta s.domains hlib hc hsets hlab
  constructor
  · obtain ⟨V, Vdot, ht⟩ := (C70_translates_iff s.lib s.rounding none s.quad s.nVars s.net hnet s.f hf).1 hsup
    obtain ⟨g, hg⟩ := hsc V Vdot
    exact ⟨g, by simp only [queriesCT, hi, ht, hg, Bind.bind, Except.bind]⟩
  · intro hr
    obtain ⟨V, Vdot, ht⟩ := (C70_translates_iff_dt s.lib s.rounding s.quad s.nVars s.net hnet s.f hf).1 hr hsup
    obtain ⟨g, hg⟩ := hsc V Vdot
    exact ⟨g, by simp only [queriesDT, hi, ht, hg, Bind.bind, Except.bind]⟩

/-- The violation formulas of a certificate with two networks (as chosen in `Verifier`, certificate.py:1431-1444, 1561-1587). -/
theorem double_constraints_total (lib : Lib) (n : ℕ) (cert : CertType) (llo : Bool) (beta : ℚ) (domains : Dict String PySet) (hlib : lib = .z3 ∨ lib = .dreal)
    (hc : cert = .STABLESAFE ∨ cert = .RAR) (hsets : UsableSets n domains) (hlab : ∀ l ∈ setsOf cert, ∃ S, Dict.get? domains l = some S) :
    ∃ d, initialiseDomains lib n cert domains = .ok d ∧ ∀ V Vdot B Bdot, ∃ groups : List (Dict String Formula), (match cert with
      | .STABLESAFE => safeRoaConstraints n llo beta d V Vdot B Bdot
      | .RAR => rarConstraints d V Vdot B Bdot
      | _ => .error .valueError) = .ok groups ∧
      (cert = .RAR → groups.map Dict.keys = [[XI, XU], [XD], [XG, XNF], [XF]]) ∧ (cert = .STABLESAFE → groups.map Dict.keys = [[XD], [XI, XU], [XD]]) := by
  obtain ⟨d, hd⟩ := domainEntries_total hlib hsets
  have hk := fun l hl => entry_of_key hd (hlab l hl)
  rcases hc with rfl | rfl
  · refine ⟨d, ?_, fun V Vdot B Bdot => ?_⟩
    · unfold initialiseDomains
      rw [hd]
      simp
    obtain ⟨a, ha⟩ := hk XD (by simp [setsOf])
    obtain ⟨b, hb⟩ := hk XI (by simp [setsOf])
    obtain ⟨c, hc'⟩ := hk XU (by simp [setsOf])
    simp only [safeRoaConstraints, roaConstraints, barrierConstraints, ha, hb, hc', Bind.bind, Except.bind]
    exact ⟨_, rfl, (fun h => by cases h), fun _ => rfl⟩
  · obtain ⟨F, hF⟩ := hlab XF (by simp [setsOf])
    have hFw : WF n F := (hsets _ (Dict.get?_eq_some_mem hF)).1
    obtain ⟨φ, hφ, -⟩ := C21_complement_formula_denotes_complement lib n F hFw (by rcases hlib with h | h <;> rw [h] <;> trivial)
    have hset : ∀ l, l ≠ XNF → ∀ ψ, Dict.getE d l = .ok ψ → Dict.getE (Dict.set d XNF φ) l = .ok ψ := by
      intro l hl ψ h
      rw [getE_set_ne _ _ hl]; exact h
    refine ⟨Dict.set d XNF φ, ?_, fun V Vdot B Bdot => ?_⟩
    · unfold initialiseDomains
      rw [hd]
      simp only [if_true, getE_ok.2 hF, hφ, Bind.bind, Except.bind]
      rfl
    obtain ⟨a, ha⟩ := hk XD (by simp [setsOf])
    obtain ⟨b, hb⟩ := hk XI (by simp [setsOf])
    obtain ⟨c, hc'⟩ := hk XS (by simp [setsOf])
    obtain ⟨e, he⟩ := hk XSB (by simp [setsOf])
    obtain ⟨g, hg⟩ := hk XG (by simp [setsOf])
    have ha := hset _ (by decide) _ ha
    have hb := hset _ (by decide) _ hb
    have hc' := hset _ (by decide) _ hc'
    have he := hset _ (by decide) _ he
    have hg := hset _ (by decide) _ hg
    have hnf : Dict.getE (Dict.set d XNF φ) XNF = .ok φ := getE_set_self _ _ _
    have h1 : Dict.getE (Dict.set (Dict.set (Dict.set d XNF φ) XI g) XU φ) XD = .ok a := by
      rw [getE_set_ne _ _ (by decide : XD ≠ XU), getE_set_ne _ _ (by decide : XD ≠ XI)]; exact ha
    have h2 : Dict.getE (Dict.set (Dict.set (Dict.set d XNF φ) XI g) XU φ) XI = .ok g := by
      rw [getE_set_ne _ _ (by decide : XI ≠ XU), getE_set_self]
    have h3 : Dict.getE (Dict.set (Dict.set (Dict.set d XNF φ) XI g) XU φ) XU = .ok φ := getE_set_self _ _ _
    simp only [rarConstraints, rwsConstraints, goalFinalDomains, barrierConstraints, ha, hb, hc', he, hg, hnf, h1, h2, h3, Bind.bind, Except.bind, pure, Except.pure]
    exact ⟨_, rfl, (fun _ => rfl), (fun h => by cases h)⟩

/-- **C70 (queries, two networks).** -/
theorem C70_queries_exist_double (s : Setup) (hlib : s.lib = .z3 ∨ s.lib = .dreal) (hc : s.cert = .STABLESAFE ∨ s.cert = .RAR) (barr : Net)
    (hsets : UsableSets s.nVars s.domains) (hlab : ∀ l ∈ setsOf s.cert, ∃ S, Dict.get? s.domains l = some S)
    (hnet : Shaped s.nVars s.net) (hbarr : Shaped s.nVars barr) (hsup : ∀ a ∈ usedActs s.net ++ usedActs barr, supportsAct s.lib a = true)
    (hf : s.f.length = s.nVars) : ∃ groups, queriesDouble s barr = .ok groups := by
  obtain ⟨d, hi, hsc⟩ := double_constraints_total s.lib s.nVars s.cert s.llo s.beta s.domains hlib hc hsets hlab
  obtain ⟨⟨⟨V, Vdot⟩, ⟨B, Bdot⟩⟩, ht⟩ := (C70_translates_iff_double s.lib s.rounding none s.nVars s.net barr hnet hbarr s.f hf).2 hsup
  obtain ⟨g, hg, -⟩ := hsc V Vdot B Bdot
  exact ⟨g, by simp only [queriesDouble, hi, ht, Bind.bind, Except.bind]; exact hg⟩

theorem computeModel_total {R : Type} (B : Backend R) (n : ℕ) (r : R) (h : ∀ i < n, ∃ v, B.value r i = .ok v) : ∃ pt, computeModel B n r = .ok pt := by
  unfold computeModel
  have : ∀ is : List ℕ, (∀ i ∈ is, i < n) → ∃ pt, computeModel.go B r is = .ok pt := by
    intro is
    induction is with
    | nil => intro _; exact ⟨[], rfl⟩
    | cons i is ih =>
      intro hi
      obtain ⟨v, hv⟩ := h i (hi i List.mem_cons_self)
      obtain ⟨vs, hvs⟩ := ih fun j hj => hi j (List.mem_cons_of_mem _ hj)
      exact ⟨v :: vs, by simp only [computeModel.go, hv, hvs, Bind.bind, Except.bind, pure, Except.pure]⟩
  exact this _ fun i hi => List.mem_range.1 hi

theorem fillCex_total {R : Type} (B : Backend R) (n : ℕ) (noise : String → ℕ → ℕ → ℚ) : ∀ (res : Dict String R) (ces : Dict String (List (List ℚ))),
    (∀ q ∈ res, B.isSat q.2 = true → ∀ i < n, ∃ v, B.value q.2 i = .ok v) → ∃ c, fillCex B n noise res ces = .ok c := by
  intro res
  induction res with
  | nil => intro ces _; exact ⟨ces, rfl⟩
  | cons q rest ih =>
    intro ces h
    obtain ⟨l, r⟩ := q
    have hr := fun ces => ih ces fun q hq => h q (List.mem_cons_of_mem _ hq)
    unfold fillCex
    by_cases hs : B.isSat r = true
    · rw [if_pos hs]
      obtain ⟨pt, hpt⟩ := computeModel_total B n r (h (l, r) List.mem_cons_self hs)
      simp only [hpt, Bind.bind, Except.bind]
      exact hr _
    · rw [if_neg hs]
      exact hr _

theorem dict_set_mem {α : Type} : ∀ {d : Dict String α} {k : String} {v : α} {q : String × α}, q ∈ d.set k v → q ∈ d ∨ q.2 = v := by
  intro d
  induction d with
  | nil => intro k v q h; right; simp [Dict.set] at h; rw [h]
  | cons e d ih =>
    intro k v q h
    obtain ⟨k', v'⟩ := e
    unfold Dict.set at h
    split at h
    · rcases List.mem_cons.1 h with rfl | h
      · exact Or.inr rfl
      · exact Or.inl (List.mem_cons_of_mem _ h)
    · rcases List.mem_cons.1 h with rfl | h
      · exact Or.inl List.mem_cons_self
      · rcases ih h with h | h
        · exact Or.inl (List.mem_cons_of_mem _ h)
        · exact Or.inr h

theorem solveGroup_answers {R : Type} (o : Oracle R) : ∀ (g : Dict String Formula) (k : ℕ) (res : Dict String R) (q : String × R),
    q ∈ (solveGroup o k res g).2 → q ∈ res ∨ ∃ j φ, q.2 = o j φ := by
  intro g
  induction g with
  | nil => intro k res q h; exact Or.inl h
  | cons e g ih =>
    intro k res q h
    obtain ⟨l, φ⟩ := e
    rcases ih _ _ q h with h | h
    · rcases dict_set_mem h with h | h
      · exact Or.inl h
      · exact Or.inr ⟨k, φ, h⟩
    · exact Or.inr h

/-- **C70 (the answer).** If every "sat" answer has a value for each variable, the verification step returns, whatever the queries. -/
theorem C70_verify_total {R : Type} (B : Backend R) (n : ℕ) (noise : String → ℕ → ℕ → ℚ) (o : Oracle R) (groups : List (Dict String Formula))
    (hval : ∀ k φ, B.isSat (o k φ) = true → ∀ i < n, ∃ v, B.value (o k φ) i = .ok v) : ∃ r, verify B n noise o groups = .ok r := by
  obtain ⟨gs, gs', -, hg, -⟩ := solveGroups_prefix B o 0 [] groups
  unfold verify
  simp only [hg]
  split
  · exact ⟨_, rfl⟩
  · obtain ⟨c, hc⟩ := fillCex_total B n noise (solveGroup o 0 [] gs.flatten).2 ((solveGroup o 0 [] gs.flatten).2.map fun p => (p.1, [])) (by
      intro q hq hs i hi
      rcases solveGroup_answers o _ _ _ q hq with h | ⟨j, φ, h⟩
      · cases h
      · rw [h] at hs ⊢; exact hval j φ hs i hi)
    exact ⟨_, by simp only [hc, Bind.bind, Except.bind]; rfl⟩

/-! ### the whole run -/

namespace Spec

/-- The data labels the queries of a certificate use. -/
def queryLabels : CertType → List String
  | .LYAPUNOV | .ROA => [XD]
  | .RAR => [XI, XU, XD, XG, XNF, XF]
  | .CUSTOM => []
  | _ => [XI, XU, XD]

/-- A network that fits together and whose activations the solver supports. -/
def Usable (lib : Lib) (n : ℕ) (net : Net) : Prop := Shaped n net ∧ ∀ a ∈ usedActs net, supportsAct lib a = true

end Spec

theorem addCes_total {P : Type} (dyn : P → P) : ∀ (ces S Sdot : Dict String (List P)), (∀ l ∈ Dict.keys ces, l ∈ Dict.keys S) →
    ∃ S' Sdot', addCes dyn ces S Sdot = .ok (S', Sdot') ∧ ∀ l, l ∈ Dict.keys S' ↔ l ∈ Dict.keys S := by
  intro ces
  induction ces with
  | nil => intro S Sdot _; exact ⟨S, Sdot, rfl, fun _ => Iff.rfl⟩
  | cons e rest ih =>
    intro S Sdot h
    obtain ⟨lab, rows⟩ := e
    have hr : ∀ l ∈ Dict.keys rest, l ∈ Dict.keys S := fun l hl => h l (by simp only [Dict.keys, List.map_cons, List.mem_cons] at hl ⊢; exact Or.inr hl)
    unfold addCes
    split
    · exact ih S Sdot hr
    · have hl : lab ∈ Dict.keys S := h lab (by simp [Dict.keys])
      obtain ⟨old, ho⟩ := Option.isSome_iff_exists.1 (Dict.get?_isSome_iff.2 hl)
      simp only [ho]
      have hk : ∀ l, l ∈ Dict.keys (Dict.set S lab (old ++ rows)) ↔ l ∈ Dict.keys S := by
        intro l
        rw [← Dict.get?_isSome_iff, ← Dict.get?_isSome_iff, Dict.get?_set]
        by_cases e : lab = l
        · subst e; simp [ho]
        · rw [if_neg e]
      obtain ⟨S', Sdot', e, h'⟩ := ih (Dict.set S lab (old ++ rows)) (Dict.set Sdot lab ((old ++ rows).map dyn)) (fun l hl => (hk l).2 (hr l hl))
      exact ⟨S', Sdot', e, fun l => (h' l).trans (hk l)⟩

section
variable {N K P E : Type}

theorem processCex_total {double : Bool} {c : Components N K P E} {st : LoopState N K P E} (hk : ∀ l ∈ Dict.keys st.cex, l ∈ Dict.keys st.S)
    (hD : ∀ l ∈ Dict.keys st.S, hasLie l = true → l = XD)
    (htr : double = false → st.traj ≠ [] → XD ∈ Dict.keys st.cex) :
    ∃ st', processCex double c st = .ok st' ∧ st'.net = st.net ∧ ∀ l, l ∈ Dict.keys st'.S ↔ l ∈ Dict.keys st.S := by
  have key : ∃ cex, (if double then .ok st.cex else mergeTraj st.S st.cex st.traj : Except Err _) = .ok cex ∧ ∀ l ∈ Dict.keys cex, l ∈ Dict.keys st.S := by
    cases double with
    | true => exact ⟨st.cex, rfl, hk⟩
    | false =>
      simp only [Bool.false_eq_true, if_false]
      unfold mergeTraj
      split
      · exact ⟨_, rfl, hk⟩
      · rename_i hne
        have hx := htr rfl (by simpa using hne)
        have hf : (Dict.keys st.S).find? hasLie = some XD := by
          cases h : (Dict.keys st.S).find? hasLie with
          | none => exact absurd (List.find?_eq_none.1 h XD (hk _ hx)) (by decide)
          | some l' => rw [hD l' (List.mem_of_find?_eq_some h) (by simpa using List.find?_some h)]
        obtain ⟨rows, hr⟩ := Option.isSome_iff_exists.1 (Dict.get?_isSome_iff.2 hx)
        simp only [hf, hr]
        refine ⟨_, rfl, fun l hl => ?_⟩
        rw [← Dict.get?_isSome_iff, Dict.get?_set] at hl
        by_cases e : XD = l
        · rw [← e]; exact hk _ hx
        · rw [if_neg e, Dict.get?_isSome_iff] at hl; exact hk _ hl
  obtain ⟨cex, h1, h2⟩ := key
  obtain ⟨S', Sdot', h3, h4⟩ := addCes_total (c.dyn st.ctrl) cex st.S st.Sdot h2
  exact ⟨{ st with cex := cex, S := S', Sdot := Sdot' }, by unfold processCex; rw [h1]; simp only [h3], rfl, h4⟩

/-- If no component raises and every query label has data, no pass raises and the run ends within `N + 1` passes. -/
theorem run_total (cfg : LoopCfg) (hN : 0 ≤ cfg.maxIters) (c : Components N K P E) (G : N → Prop) (L : List String)
    (hlearn : ∀ st, G st.net → (∀ l ∈ L, l ∈ Dict.keys st.S) → ∃ n k, c.learn st = .ok (n, k) ∧ G n)
    (htrans : ∀ n k, G n → ∃ V Vdot, c.translate n k = .ok (V, Vdot))
    (hver : ∀ i n k V Vdot, G n → c.translate n k = .ok (V, Vdot) → ∃ f cex, c.verify i n V Vdot = .ok (f, cex) ∧ ∀ l ∈ Dict.keys cex, l ∈ L)
    (hcons : ∀ i n k cex, ∃ traj, c.consolidate i n k cex = .ok traj ∧ ((∀ e ∈ cex, hasLie e.1 = true → e.2 = []) → traj = []))
    (hest : (cfg.cert = .LYAPUNOV ∨ cfg.cert = .ROA) → ∀ n, G n → c.estimateBeta n = .ok ())
    (hbeta : cfg.cert = .RSWS → ∀ i V Vdot, ∃ b, c.betaSearch i V Vdot = .ok b)
    (net : N) (ctrl : K) (S : Dict String (List P)) (hG : G net) (hS : ∀ l ∈ L, l ∈ Dict.keys S) (hD : ∀ l ∈ Dict.keys S, hasLie l = true → l = XD) :
    ∃ out, Solves cfg c net ctrl S out ∧ (out.iters : ℤ) ≤ cfg.maxIters + 1 := by
  have pass : ∀ st : LoopState N K P E, G st.net → (∀ l ∈ L, l ∈ Dict.keys st.S) → (∀ l ∈ Dict.keys st.S, hasLie l = true → l = XD) →
      ∃ b st', loopBody cfg c st = .ok (b, st') ∧ G st'.net ∧ (∀ l ∈ L, l ∈ Dict.keys st'.S) ∧ ∀ l ∈ Dict.keys st'.S, hasLie l = true → l = XD := by
    intro st hg hs hd
    obtain ⟨n, k, h1, hg'⟩ := hlearn st hg hs
    obtain ⟨V, Vdot, h2⟩ := htrans n k hg'
    obtain ⟨f, cex, h3, hl⟩ := hver st.iters n k V Vdot hg' h2
    obtain ⟨traj, h4, ht⟩ := hcons st.iters n k cex
    have hdec : ∃ b st2, loopDecide cfg c V Vdot (st.after n k V Vdot f cex traj) = .ok (b, st2) ∧ G st2.net ∧
        (∀ l ∈ L, l ∈ Dict.keys st2.S) ∧ ∀ l ∈ Dict.keys st2.S, hasLie l = true → l = XD := by
      unfold loopDecide
      split
      · unfold processCertificate
        have he : (if cfg.cert = .LYAPUNOV ∨ cfg.cert = .ROA then c.estimateBeta (st.after n k V Vdot f cex traj).net else .ok ()) = .ok () := by
          split
          · rename_i h; exact hest h _ hg'
          · rfl
        simp only [he]
        split
        · rename_i hr
          obtain ⟨b, hb⟩ := hbeta hr (st.after n k V Vdot f cex traj).iters V Vdot
          simp only [hb]
          cases b with
          | true => exact ⟨_, _, rfl, hg', hs, hd⟩
          | false => exact ⟨_, _, rfl, hg', hs, hd⟩
        · exact ⟨_, _, rfl, hg', hs, hd⟩
      · split
        · exact ⟨_, _, rfl, hg', hs, hd⟩
        · split
          · exact ⟨_, _, rfl, hg', hs, hd⟩
          · obtain ⟨st', e, e1, e2⟩ := processCex_total (double := cfg.double) (c := c) (st := st.after n k V Vdot f cex traj)
              (fun l hl' => hs l (hl l hl')) hd (by
                intro _ hne
                by_contra hx
                refine hne (ht fun e he hlie => ?_)
                have hm : e.1 ∈ Dict.keys cex := List.mem_map_of_mem he
                have := hd _ (hs _ (hl _ hm)) hlie
                exact absurd (this ▸ hm) hx)
            rw [e]
            exact ⟨_, _, rfl, by rw [e1]; exact hg', fun l h => (e2 l).2 (hs l h), fun l h => hd l ((e2 l).1 h)⟩
    obtain ⟨b, st2, h5, h6, h7, h8⟩ := hdec
    exact ⟨b, st2.tick, by simp only [loopBody, h1, h2, h3, h4, h5, Bind.bind, Except.bind, pure, Except.pure], h6, h7, h8⟩
  have noerr : ∀ fuel (st : LoopState N K P E), G st.net → (∀ l ∈ L, l ∈ Dict.keys st.S) → (∀ l ∈ Dict.keys st.S, hasLie l = true → l = XD) →
      ∀ e, runLoop cfg c fuel st ≠ .error e := by
    intro fuel
    induction fuel with
    | zero => intro st _ _ _ e h; cases h
    | succ fuel ih =>
      intro st hg hs hd e h
      obtain ⟨b, st', h1, h2, h3, h4⟩ := pass st hg hs hd
      simp only [runLoop, h1] at h
      cases b with
      | true => cases h
      | false => exact ih st' h2 h3 h4 e h
  rcases C28_terminates cfg hN c net ctrl S with ⟨e, h⟩ | ⟨out, -, h⟩
  · exact absurd h (noerr _ _ hG hS hD e)
  · exact ⟨out, h, ((C28_iteration_bound cfg hN c net ctrl S).2 out h).1⟩

end

theorem solveGroup_key_of {R : Type} (o : Oracle R) : ∀ (g : Dict String Formula) (k : ℕ) (res : Dict String R) (l : String),
    l ∈ Dict.keys (solveGroup o k res g).2 → l ∈ Dict.keys res ∨ l ∈ Dict.keys g := by
  intro g
  induction g with
  | nil => intro k res l h; exact Or.inl h
  | cons e g ih =>
    intro k res l h
    obtain ⟨a, φ⟩ := e
    have hc : ∀ x, x ∈ Dict.keys g → x ∈ Dict.keys ((a, φ) :: g) := by intro x hx; simp only [Dict.keys, List.map_cons, List.mem_cons] at hx ⊢; exact Or.inr hx
    rcases ih _ _ l h with h | h
    · rw [← Dict.get?_isSome_iff, Dict.get?_set] at h
      by_cases e : a = l
      · subst e; exact Or.inr (by simp [Dict.keys])
      · rw [if_neg e, Dict.get?_isSome_iff] at h; exact Or.inl h
    · exact Or.inr (hc _ h)

/-- The labels of the counterexamples are labels of queries. -/
theorem verify_labels {R : Type} {B : Backend R} {n : ℕ} {noise : String → ℕ → ℕ → ℚ} {o : Oracle R} {groups : List (Dict String Formula)} {r : VerifyOut}
    (h : verify B n noise o groups = .ok r) : ∀ l ∈ Dict.keys r.cex, ∃ g ∈ groups, l ∈ Dict.keys g := by
  intro l hl
  rw [verify_keys h] at hl
  obtain ⟨gs, gs', hg, e, -⟩ := solveGroups_prefix B o 0 [] groups
  rw [e] at hl
  rcases solveGroup_key_of o _ _ _ l hl with h | h
  · simp [Dict.keys] at h
  · obtain ⟨q, hq, rfl⟩ := List.mem_map.1 h
    obtain ⟨g, hg', hq'⟩ := List.mem_flatten.1 hq
    exact ⟨g, hg ▸ List.mem_append.2 (Or.inl hg'), List.mem_map_of_mem hq'⟩

/-- The labels of the queries of a certificate. -/
theorem singleConstraints_labels {ct : CertType} {n : ℕ} {llo : Bool} {beta : ℚ} {d : Dict String Formula} {V Vdot : Term} {groups : List (Dict String Formula)}
    (h : singleConstraints ct n llo beta d V Vdot = .ok groups) : ∀ g ∈ groups, ∀ l ∈ Dict.keys g, l ∈ queryLabels ct := by
  cases ct with
  | LYAPUNOV =>
    obtain ⟨a, -, h⟩ := except_bind_ok h
    cases h
    intro g hg l hl
    simp only [List.mem_singleton] at hg
    subst hg
    simpa [Dict.keys, queryLabels] using hl
  | ROA =>
    obtain ⟨a, -, h⟩ := except_bind_ok h
    cases h
    intro g hg l hl
    simp only [List.mem_singleton] at hg
    subst hg
    simpa [Dict.keys, queryLabels] using hl
  | BARRIER | BARRIERALT =>
    obtain ⟨a, -, h⟩ := except_bind_ok h
    obtain ⟨b, -, h⟩ := except_bind_ok h
    obtain ⟨c, -, h⟩ := except_bind_ok h
    cases h
    intro g hg l hl
    simp only [List.mem_cons, List.not_mem_nil, or_false] at hg
    rcases hg with rfl | rfl <;> simp only [Dict.keys, List.map_cons, List.map_nil, List.mem_cons, List.not_mem_nil, or_false] at hl <;>
      simp only [queryLabels, List.mem_cons, List.not_mem_nil, or_false] <;> tauto
  | RWA | RWS | RSWA | RSWS =>
    obtain ⟨a, -, h⟩ := except_bind_ok h
    obtain ⟨b, -, h⟩ := except_bind_ok h
    obtain ⟨c, -, h⟩ := except_bind_ok h
    obtain ⟨e, -, h⟩ := except_bind_ok h
    obtain ⟨e', -, h⟩ := except_bind_ok h
    cases h
    intro g hg l hl
    simp only [List.mem_cons, List.not_mem_nil, or_false] at hg
    rcases hg with rfl | rfl <;> simp only [Dict.keys, List.map_cons, List.map_nil, List.mem_cons, List.not_mem_nil, or_false] at hl <;>
      simp only [queryLabels, List.mem_cons, List.not_mem_nil, or_false] <;> tauto
  | STABLESAFE | RAR | CUSTOM => cases h

/-- **C70 (a run never raises).** With z3 or dReal, for every certificate with one network: if the sets of the certificate are given and usable, the
learner keeps returning networks that fit together with supported activations, "sat" answers have values for all variables, the dynamics have the right
dimension, every query label has data, and — where they are used — the level estimate and the stay search return, then the run returns a result within
`CEGIS_MAX_ITERS + 1` passes, whatever the solver answers. In discrete time weights must not be rounded to no decimals. -/
theorem C70_run_total {R K : Type} (w : World R K (Net × ℚ)) (c : SynthCfg) (discrete : Bool)
    (learn : LoopState (Net × ℚ) K (List ℚ) Term → Except Err ((Net × ℚ) × K))
    (hlib : c.lib = .z3 ∨ c.lib = .dreal) (hct : c.cert ≠ .STABLESAFE ∧ c.cert ≠ .RAR ∧ c.cert ≠ .CUSTOM) (hN : 0 ≤ c.maxIters)
    (hsets : UsableSets c.nVars c.domains) (hlab : ∀ l ∈ setsOf c.cert, ∃ S, Dict.get? c.domains l = some S)
    (hrnd : discrete = true → c.rounding ≠ 0)
    (hdyn : ∀ k, (w.dynamics k).length = c.nVars)
    (hval : ∀ i k φ, w.backend.isSat (w.oracle i k φ) = true → ∀ v < c.nVars, ∃ q, w.backend.value (w.oracle i k φ) v = .ok q)
    (hlearn : ∀ st, Usable c.lib c.nVars st.net.1 → (∀ l ∈ queryLabels c.cert, l ∈ Dict.keys st.S) →
      ∃ n k, learn st = .ok (n, k) ∧ Usable c.lib c.nVars n.1)
    (hcons : ∀ i n k cex, ∃ traj, w.consolidate i n k cex = .ok traj ∧ ((∀ e ∈ cex, hasLie e.1 = true → e.2 = []) → traj = []))
    (hest : (c.cert = .LYAPUNOV ∨ c.cert = .ROA) → ∀ n, Usable c.lib c.nVars n.1 → w.estimateBeta n = .ok ())
    (hstay : c.cert = .RSWS → ∀ i V Vdot, ∃ k β, BetaRun (stayCheckFor w.backend (w.stayOracle i) c V Vdot) betaInit k β)
    (net : Net × ℚ) (ctrl : K) (S : Dict String (List (List ℚ))) (hnet : Usable c.lib c.nVars net.1)
    (hS : ∀ l ∈ queryLabels c.cert, l ∈ Dict.keys S) (hD : ∀ l ∈ Dict.keys S, hasLie l = true → l = XD) :
    ∃ out, Solves c.loop (singleComponents w c discrete learn) net ctrl S out ∧ (out.iters : ℤ) ≤ c.maxIters + 1 := by
  refine run_total c.loop hN (singleComponents w c discrete learn) (fun n => Usable c.lib c.nVars n.1) (queryLabels c.cert) hlearn ?_ ?_ hcons hest ?_
    net ctrl S hnet hS hD
  · intro n k hn
    show ∃ V Vdot, (if discrete then translateDT c.lib c.rounding c.quad n.1 (vars c.nVars) (w.dynamics k)
      else translateCT c.lib c.rounding none c.quad n.1 (vars c.nVars) (w.dynamics k)) = .ok (V, Vdot)
    cases hd : discrete with
    | true => exact (C70_translates_iff_dt c.lib c.rounding c.quad c.nVars n.1 hn.1 _ (hdyn k)).1 (hrnd hd) hn.2
    | false => exact (C70_translates_iff c.lib c.rounding none c.quad c.nVars n.1 hn.1 _ (hdyn k)).1 hn.2
  · intro i n k V Vdot hn _
    obtain ⟨d, hi, hsc⟩ := single_constraints_total c.lib c.nVars c.cert c.llo n.2 c.domains hlib hct hsets hlab
    obtain ⟨g, hg⟩ := hsc V Vdot
    obtain ⟨r, hr⟩ := C70_verify_total w.backend c.nVars (w.noise i) (w.oracle i) g (hval i)
    refine ⟨r.found, r.cex, ?_, fun l hl => ?_⟩
    · show Except.bind _ _ = _
      simp only [hi, hg, hr, Bind.bind, Except.bind, pure, Except.pure]
    · obtain ⟨g', hg', hl'⟩ := verify_labels hr l hl
      exact singleConstraints_labels hg g' hg' l hl'
  · intro hc i V Vdot
    obtain ⟨k, β, hk⟩ := hstay hc i V Vdot
    show ∃ b, betaSearchFn (stayCheckFor w.backend (w.stayOracle i) c V Vdot) = .ok b
    unfold betaSearchFn
    split
    · exact ⟨_, rfl⟩
    · split
      · exact ⟨_, rfl⟩
      · rename_i h1 h2
        cases β with
        | some β => exact absurd ⟨k, β, hk⟩ h1
        | none => exact absurd ⟨k, hk⟩ h2

/-- **C70 (a run never raises, two networks).** The same for the certificates with two networks (STABLESAFE, RAR). -/
theorem C70_run_total_double {R K : Type} (w : World R K ((Net × ℚ) × Net)) (c : SynthCfg)
    (learn : LoopState ((Net × ℚ) × Net) K (List ℚ) (Term × Term) → Except Err (((Net × ℚ) × Net) × K))
    (hlib : c.lib = .z3 ∨ c.lib = .dreal) (hct : c.cert = .STABLESAFE ∨ c.cert = .RAR) (hN : 0 ≤ c.maxIters)
    (hsets : UsableSets c.nVars c.domains) (hlab : ∀ l ∈ setsOf c.cert, ∃ S, Dict.get? c.domains l = some S)
    (hdyn : ∀ k, (w.dynamics k).length = c.nVars)
    (hval : ∀ i k φ, w.backend.isSat (w.oracle i k φ) = true → ∀ v < c.nVars, ∃ q, w.backend.value (w.oracle i k φ) v = .ok q)
    (hlearn : ∀ st, Usable c.lib c.nVars st.net.1.1 ∧ Usable c.lib c.nVars st.net.2 → (∀ l ∈ queryLabels c.cert, l ∈ Dict.keys st.S) →
      ∃ n k, learn st = .ok (n, k) ∧ Usable c.lib c.nVars n.1.1 ∧ Usable c.lib c.nVars n.2)
    (hcons : ∀ i n k cex, ∃ traj, w.consolidate i n k cex = .ok traj ∧ ((∀ e ∈ cex, hasLie e.1 = true → e.2 = []) → traj = []))
    (net : (Net × ℚ) × Net) (ctrl : K) (S : Dict String (List (List ℚ))) (hnet : Usable c.lib c.nVars net.1.1) (hbar : Usable c.lib c.nVars net.2)
    (hS : ∀ l ∈ queryLabels c.cert, l ∈ Dict.keys S) (hD : ∀ l ∈ Dict.keys S, hasLie l = true → l = XD) :
    ∃ out, Solves c.loop (doubleComponents w c learn) net ctrl S out ∧ (out.iters : ℤ) ≤ c.maxIters + 1 := by
  refine run_total c.loop hN (doubleComponents w c learn) (fun n => Usable c.lib c.nVars n.1.1 ∧ Usable c.lib c.nVars n.2) (queryLabels c.cert) hlearn ?_ ?_ hcons
    ?_ ?_ net ctrl S ⟨hnet, hbar⟩ hS hD
  · intro n k hn
    obtain ⟨⟨⟨V, Vdot⟩, ⟨B, Bdot⟩⟩, ht⟩ := (C70_translates_iff_double c.lib c.rounding none c.nVars n.1.1 n.2 hn.1.1 hn.2.1 _ (hdyn k)).2 (by
      intro a ha
      rcases List.mem_append.1 ha with ha | ha
      · exact hn.1.2 a ha
      · exact hn.2.2 a ha)
    refine ⟨(V, B), (Vdot, Bdot), ?_⟩
    show Except.bind _ _ = _
    rw [ht]
    rfl
  · intro i n k V Vdot hn _
    obtain ⟨d, hi, hsc⟩ := double_constraints_total c.lib c.nVars c.cert c.llo n.1.2 c.domains hlib hct hsets hlab
    obtain ⟨g, hg, hr1, hr2⟩ := hsc V.1 Vdot.1 V.2 Vdot.2
    obtain ⟨r, hr⟩ := C70_verify_total w.backend c.nVars (w.noise i) (w.oracle i) g (hval i)
    refine ⟨r.found, r.cex, ?_, fun l hl => ?_⟩
    · show Except.bind _ _ = _
      rw [hi]
      show Except.bind _ _ = _
      have hg' := hg
      rcases hct with hc | hc <;> rw [hc] at hg' ⊢ <;> dsimp only at hg' ⊢ <;> simp only [Except.bind, Bind.bind, hg', hr, pure, Except.pure]
    · obtain ⟨g', hg', hl'⟩ := verify_labels hr l hl
      have hm : Dict.keys g' ∈ g.map Dict.keys := List.mem_map_of_mem hg'
      rcases hct with hc | hc
      · rw [hr2 hc] at hm
        rw [hc]
        simp only [List.mem_cons, List.not_mem_nil, or_false] at hm
        rcases hm with h | h | h <;> rw [h] at hl' <;> simp only [List.mem_cons, List.not_mem_nil, or_false] at hl' <;>
          simp only [queryLabels, List.mem_cons, List.not_mem_nil, or_false] <;> tauto
      · rw [hr1 hc] at hm
        rw [hc]
        simp only [List.mem_cons, List.not_mem_nil, or_false] at hm
        rcases hm with h | h | h | h <;> rw [h] at hl' <;> simp only [List.mem_cons, List.not_mem_nil, or_false] at hl' <;>
          simp only [queryLabels, List.mem_cons, List.not_mem_nil, or_false] <;> tauto
  · intro h
    have h' : c.cert = .LYAPUNOV ∨ c.cert = .ROA := h
    rcases hct with hc | hc <;> rw [hc] at h' <;> rcases h' with h' | h' <;> cases h'
  · intro h
    have h' : c.cert = .RSWS := h
    rcases hct with hc | hc <;> rw [hc] at h' <;> cases h'

/-- **C70 (unsupported activation).** If the networks have a hidden activation the solver does not support, no run ever returns (it raises in the first
pass, before any query) — even if the certificate would be valid. -/
theorem C70_unsupported_never {R K : Type} (w : World R K (Net × ℚ)) (c : SynthCfg) (discrete : Bool)
    (learn : LoopState (Net × ℚ) K (List ℚ) Term → Except Err ((Net × ℚ) × K)) (hdyn : ∀ k, (w.dynamics k).length = c.nVars)
    (hlearn : ∀ st n k, learn st = .ok (n, k) → Shaped c.nVars n.1 ∧ ∃ a ∈ usedActs n.1, supportsAct c.lib a = false)
    (net : Net × ℚ) (ctrl : K) (S : Dict String (List (List ℚ))) (out) : ¬ Solves c.loop (singleComponents w c discrete learn) net ctrl S out := by
  rintro ⟨k, st, -, hb⟩
  obtain ⟨n, kk, V, Vdot, found, cex, traj, st2, h1, h2, -⟩ := loopBody_inv hb
  obtain ⟨hs, a, ha, hu⟩ := hlearn st n kk h1
  have h2 : (if discrete then translateDT c.lib c.rounding c.quad n.1 (vars c.nVars) (w.dynamics kk)
      else translateCT c.lib c.rounding none c.quad n.1 (vars c.nVars) (w.dynamics kk)) = .ok (V, Vdot) := h2
  cases hd : discrete with
  | false =>
    rw [hd] at h2
    obtain ⟨e, he, -⟩ := (C70_translates_iff c.lib c.rounding none c.quad c.nVars n.1 hs _ (hdyn kk)).2 ⟨a, ha, hu⟩
    simp only [Bool.false_eq_true, if_false, he] at h2
    cases h2
  | true =>
    rw [hd] at h2
    simp only [if_true] at h2
    by_cases hr : c.rounding = 0
    · have hlen : 2 ≤ n.1.layers.length := by
        have : a ∈ n.1.acts.take (n.1.layers.length - 1) := ha
        by_contra hlt
        rw [show n.1.layers.length - 1 = 0 by omega] at this
        simp at this
      rw [(C70_translates_iff_dt c.lib c.rounding c.quad c.nVars n.1 hs _ (hdyn kk)).2.2 hr hlen] at h2
      cases h2
    · obtain ⟨e, he, -⟩ := (C70_translates_iff_dt c.lib c.rounding c.quad c.nVars n.1 hs _ (hdyn kk)).2.1 hr ⟨a, ha, hu⟩
      rw [he] at h2
      cases h2

/-! ### concrete cases -/

/-- exampleNet (tanh, square) can be given to dReal and not to z3; the ReLU network to both. -/
example : (∃ r, translateCT .dreal 3 none true exampleNet (vars 2) [.neg (.var 1), .app .sin (.var 0)] = .ok r) ∧
    (∃ e, translateCT .z3 3 none true exampleNet (vars 2) [.neg (.var 1), .app .sin (.var 0)] = .error e ∧ IsUnsupported e) :=
  ⟨by
    obtain ⟨V, Vdot, h⟩ := (C70_translates_iff .dreal 3 none true 2 exampleNet exampleNet_shaped [.neg (.var 1), .app .sin (.var 0)] rfl).1
      (by simp [usedActs, exampleNet, supportsAct])
    exact ⟨_, h⟩,
   (C70_translates_iff .z3 3 none true 2 exampleNet exampleNet_shaped [.neg (.var 1), .app .sin (.var 0)] rfl).2
      (by simp [usedActs, exampleNet, supportsAct])⟩

example : usedActs exReluNet = [.relu] ∧ supportsAct .z3 .relu = true ∧ supportsAct .dreal .relu = true ∧ supportsAct .sympy .relu = false := ⟨rfl, rfl, rfl, rfl⟩

/-- A solver that always answers with a counterexample at (1, ..., 1). -/
def exSatWorld (n : ℕ) (N : Type) (f : List Term) : World Answer Unit N where
  backend := smtBackend
  oracle _ _ _ := .sat fun i => if i < n then some (.rat 1) else none
  stayOracle _ _ _ _ := .unsat
  noise _ _ _ _ := 0
  dynamics _ := f
  dynNum _ p := p
  consolidate _ _ _ _ := .ok []
  estimateBeta _ := .ok ()

theorem exSatWorld_val (n : ℕ) (N : Type) (f : List Term) (i k : ℕ) (φ : Formula) : ∀ v < n, ∃ q, smtBackend.value ((exSatWorld n N f).oracle i k φ) v = .ok q := by
  intro v hv
  exact ⟨1, by simp [exSatWorld, smtBackend, Answer.value, hv]⟩

def exRunCfg : SynthCfg := ⟨.z3, 1, .LYAPUNOV, [(XD, .rectangle [-1] [1] none)], false, 3, false, 7⟩

/-- Non-vacuity of `C70_run_total`: a run with a solver that always finds a counterexample; it returns (with "not found") after 8 passes. -/
example : ∃ out, Solves exRunCfg.loop (singleComponents (exSatWorld 1 _ [.neg (.var 0)]) exRunCfg false fun st => .ok (st.net, st.ctrl))
    (exLyap.net, 0) () [(XD, [[1/2]])] out ∧ (out.iters : ℤ) ≤ 8 := by
  refine C70_run_total (exSatWorld 1 _ [.neg (.var 0)]) exRunCfg false (fun st => .ok (st.net, st.ctrl)) (Or.inl rfl) ⟨?_, ?_, ?_⟩ (by decide) ?_ ?_
    (fun h => by cases h) (fun _ => rfl) (fun i k φ _ => exSatWorld_val _ _ _ i k φ) (fun st h _ => ⟨st.net, st.ctrl, rfl, h⟩)
    (fun _ _ _ _ => ⟨[], rfl, fun _ => rfl⟩) (fun _ _ _ => rfl) (fun h => by cases h) _ _ _ ?_ ?_ ?_
  · intro h; cases h
  · intro h; cases h
  · intro h; cases h
  · intro e he
    simp only [exRunCfg, List.mem_singleton] at he
    subst he
    exact ⟨by simp [WF, exRunCfg, noSel], fun h => absurd h (by decide)⟩
  · intro l hl
    simp only [exRunCfg, setsOf, List.mem_singleton] at hl
    subst hl
    exact ⟨_, rfl⟩
  · refine ⟨⟨rfl, by simp [exLyap, shapedFrom, exRunCfg], by simp [exLyap], ⟨_, rfl, rfl⟩⟩, ?_⟩
    intro a ha
    simp [usedActs, exLyap] at ha
    subst ha
    rfl
  · intro l hl
    simp only [exRunCfg, queryLabels, List.mem_singleton] at hl
    subst hl
    simp [Dict.keys]
  · intro l hl _
    simpa [Dict.keys] using hl

def exRunRAR : SynthCfg := ⟨.z3, 1, .RAR, exRAR.domains, false, 3, false, 7⟩

/-- Non-vacuity of `C70_run_total_double`: the reach-avoid-remain problem of C16, solver always finding a counterexample. -/
example : ∃ out, Solves exRunRAR.loop (doubleComponents (exSatWorld 1 _ [.neg (.var 0)]) exRunRAR fun st => .ok (st.net, st.ctrl))
    ((exRAR.net, 0), exRARNet) () [(XD, [[1/2]]), (XI, [[1/2]]), (XU, [[1]]), (XG, [[0]]), (XNF, [[1]]), (XF, [[0]])] out ∧ (out.iters : ℤ) ≤ 8 := by
  refine C70_run_total_double (exSatWorld 1 _ [.neg (.var 0)]) exRunRAR (fun st => .ok (st.net, st.ctrl)) (Or.inl rfl) (Or.inr rfl) (by decide) ?_ ?_
    (fun _ => rfl) (fun i k φ _ => exSatWorld_val _ _ _ i k φ) (fun st h _ => ⟨st.net, st.ctrl, rfl, h⟩)
    (fun _ _ _ _ => ⟨[], rfl, fun _ => rfl⟩) _ _ _ ?_ ?_ ?_ ?_
  · intro e he
    simp only [exRunRAR, exRAR, List.mem_cons, List.not_mem_nil, or_false] at he
    rcases he with rfl | rfl | rfl | rfl | rfl | rfl <;> simp [WF, exRunRAR, noSel, BoundaryOK]
  · intro l hl
    simp only [exRunRAR, setsOf, List.mem_cons, List.not_mem_nil, or_false] at hl
    rcases hl with rfl | rfl | rfl | rfl | rfl | rfl <;> exact ⟨_, rfl⟩
  · refine ⟨⟨rfl, by simp [exRAR, exReach, shapedFrom, exRunRAR], by simp [exRAR, exReach], ⟨_, rfl, rfl⟩⟩, ?_⟩
    intro a ha
    simp [usedActs, exRAR, exReach] at ha
    subst ha
    rfl
  · refine ⟨⟨rfl, by simp [exRARNet, shapedFrom, exRunRAR], by simp [exRARNet], ⟨_, rfl, rfl⟩⟩, ?_⟩
    intro a ha
    simp [usedActs, exRARNet] at ha
    subst ha
    rfl
  · intro l hl
    simp only [exRunRAR, queryLabels, List.mem_cons, List.not_mem_nil, or_false] at hl
    simp only [Dict.keys, List.map_cons, List.map_nil, List.mem_cons, List.not_mem_nil, or_false]
    tauto
  · intro l hl
    exact (C30_lie_labels l (by
      simp only [Dict.keys, List.map_cons, List.map_nil, List.mem_cons, List.not_mem_nil, or_false] at hl ⊢
      tauto)).1

/-- Non-vacuity of `C70_unsupported_never`: a learner of tanh networks with z3. -/
example : ∀ st n k, (fun _ : LoopState (Net × ℚ) Unit (List ℚ) Term => (.ok ((exampleNet, 0), ()) : Except Err ((Net × ℚ) × Unit))) st = .ok (n, k) →
    Shaped 2 n.1 ∧ ∃ a ∈ usedActs n.1, supportsAct .z3 a = false := by
  intro st n k h
  cases h
  exact ⟨exampleNet_shaped, .tanh, by simp [usedActs, exampleNet], rfl⟩

end Fossil

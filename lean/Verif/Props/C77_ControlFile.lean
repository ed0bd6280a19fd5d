/-
C77: a configuration file that asks for a controller, run to its end. C76 for the files of C59.
-/
import Verif.Props.C76_File
import Verif.Props.C59_ControlConfig

namespace Fossil
open Spec Set

namespace Spec

/-- Two controllers of the same architecture. -/
def SameController (k k' : Controller) : Prop :=
  k'.acts = k.acts ∧ List.Forall₂ (fun m m' : Mat => m'.map List.length = m.map List.length) k.layers k'.layers

end Spec

/-! ### the closed loop stays defined -/

theorem matVec_shape {m m' : Mat} (h : m'.map List.length = m.map List.length) {y y' z : List Term} (hy : y'.length = y.length) (hz : matVec (round5 m) y = .ok z) :
    ∃ z', matVec (round5 m') y' = .ok z' ∧ z'.length = z.length := by
  unfold matVec at hz ⊢
  split_ifs at hz with ha
  cases hz
  have hl : ∀ m : Mat, (round5 m).map List.length = m.map List.length := by intro m; simp [round5, Function.comp_def]
  rw [if_pos]
  · refine ⟨_, rfl, ?_⟩
    have := congrArg List.length h
    simpa [round5] using this
  · rw [List.all_eq_true] at ha ⊢
    intro r hr
    have h1 : r.length ∈ (round5 m').map List.length := List.mem_map_of_mem hr
    rw [hl, h, ← hl] at h1
    obtain ⟨r0, hr0, e⟩ := List.mem_map.1 h1
    have := ha r0 hr0
    rw [beq_iff_eq] at this ⊢
    rw [← e, this, hy]

theorem symAct_shape {lib : Lib} {a : Option Act} {y y' z : List Term} (hy : y'.length = y.length) (hz : symAct lib a y = .ok z) :
    ∃ z', symAct lib a y' = .ok z' ∧ z'.length = z.length := by
  cases a with
  | none => cases hz
  | some a =>
    have hz : a.forwardSym lib y = .ok z := hz
    cases hs : supportsAct lib a with
    | false =>
      obtain ⟨e, he, -⟩ := (forwardSym_total lib a y).2 hs
      rw [hz] at he; cases he
    | true =>
      obtain ⟨z1, h1, h2⟩ := (forwardSym_total lib a y).1 hs
      rw [hz] at h1; cases h1
      obtain ⟨z2, h3, h4⟩ := (forwardSym_total lib a y').1 hs
      exact ⟨z2, h3, by rw [h4, h2, hy]⟩

theorem zipSym_nil (lib : Lib) (ms : List Mat) (y : List Term) : zipSym lib [] ms y = .ok y := by cases ms <;> rfl

theorem zipSym_shape {lib : Lib} : ∀ (as : List (Option Act)) {ms ms' : List Mat}, List.Forall₂ (fun m m' : Mat => m'.map List.length = m.map List.length) ms ms' →
    ∀ {y y' z : List Term}, y'.length = y.length → zipSym lib as ms y = .ok z → ∃ z', zipSym lib as ms' y' = .ok z' ∧ z'.length = z.length := by
  intro as
  induction as with
  | nil => intro ms ms' _ y y' z hy hz; rw [zipSym_nil] at hz; cases hz; exact ⟨y', zipSym_nil _ _ _, hy⟩
  | cons a as ih =>
    intro ms ms' hm y y' z hy hz
    cases hm with
    | nil => cases hz; exact ⟨y', rfl, hy⟩
    | @cons m m' ms ms' h1 h2 =>
      rw [zipSym] at hz ⊢
      cases e1 : matVec (round5 m) y with
      | error e => rw [e1] at hz; cases hz
      | ok u =>
        rw [e1] at hz
        obtain ⟨u', e1', l1⟩ := matVec_shape h1 hy e1
        cases e2 : symAct lib a u with
        | error e => simp only [e2] at hz; cases hz
        | ok v =>
          simp only [e2] at hz
          obtain ⟨v', e2', l2⟩ := symAct_shape l1 e2
          simp only [e1', e2']
          exact ih h2 l2 hz

theorem toSymbolic_shape {lib : Lib} {k k' : Controller} (h : SameController k k') {x u : List Term} (hu : k.toSymbolic lib x = .ok u) :
    ∃ u', k'.toSymbolic lib x = .ok u' ∧ u'.length = u.length := by
  unfold Controller.toSymbolic at hu ⊢
  cases e1 : zipSym lib k.acts k.layers x with
  | error e => rw [e1] at hu; cases hu
  | ok y =>
    rw [e1] at hu
    obtain ⟨y', e1', l1⟩ := zipSym_shape k.acts h.2 (y := x) (y' := x) rfl e1
    rw [h.1, e1']
    simp only at hu ⊢
    have hlast : ∀ {ms ms' : List Mat}, List.Forall₂ (fun m m' : Mat => m'.map List.length = m.map List.length) ms ms' →
        ∀ m, ms.getLast? = some m → ∃ m', ms'.getLast? = some m' ∧ m'.map List.length = m.map List.length := by
      intro ms ms' hf
      induction hf with
      | nil => intro m hm; cases hm
      | @cons a b as bs h1 h2 ih =>
        intro m hm
        cases h2 with
        | nil => simp only [List.getLast?_singleton, Option.some.injEq] at hm ⊢; subst hm; exact ⟨b, rfl, h1⟩
        | cons h3 h4 =>
          rw [List.getLast?_cons_cons] at hm ⊢
          exact ih m hm
    cases e2 : k.layers.getLast? with
    | none => rw [e2] at hu; cases hu
    | some m =>
      rw [e2] at hu
      obtain ⟨m', e2', l2⟩ := hlast h.2 m e2
      rw [e2']
      exact matVec_shape l2 l1 hu

theorem toTerm_isSome {u u' : ℕ → Option Term} (h : ∀ i, (u i).isSome = (u' i).isSome) (e : AExpr) : (e.toTerm? u).isSome = (e.toTerm? u').isSome := by
  have opt : ∀ {α β γ : Type} {f : α → β → γ} {a a' : Option α} {b b' : Option β}, a.isSome = a'.isSome → b.isSome = b'.isSome →
      ((do return f (← a) (← b)) : Option γ).isSome = ((do return f (← a') (← b')) : Option γ).isSome := by
    intro α β γ f a a' b b' h1 h2
    cases a <;> cases a' <;> cases b <;> cases b' <;> simp_all
  have opt1 : ∀ {α γ : Type} {f : α → γ} {a a' : Option α}, a.isSome = a'.isSome →
      ((do return f (← a)) : Option γ).isSome = ((do return f (← a')) : Option γ).isSome := by
    intro α γ f a a' h1
    cases a <;> cases a' <;> simp_all
  induction e with
  | num q => rfl
  | x i => rfl
  | u i => exact h i
  | add a b iha ihb => exact opt iha ihb
  | sub a b iha ihb => exact opt iha ihb
  | mul a b iha ihb => exact opt iha ihb
  | div a b iha ihb => exact opt iha ihb
  | neg a iha => exact opt1 iha
  | app f a iha => exact opt rfl iha
  | pow a b iha ihb =>
    cases b <;> try rfl
    rename_i q
    simp only [AExpr.toTerm?]
    split_ifs
    · exact opt1 iha
    · rfl

theorem mapM_isSome {u u' : ℕ → Option Term} (h : ∀ i, (u i).isSome = (u' i).isSome) : ∀ (es : List AExpr) {fs}, es.mapM (AExpr.toTerm? u) = some fs →
    ∃ fs', es.mapM (AExpr.toTerm? u') = some fs' := by
  intro es
  induction es with
  | nil => intro fs _; exact ⟨[], rfl⟩
  | cons e es ih =>
    intro fs hf
    rw [List.mapM_cons] at hf
    have := toTerm_isSome h e
    cases h1 : e.toTerm? u with
    | none => rw [h1] at hf; cases hf
    | some t =>
      cases h2 : es.mapM (AExpr.toTerm? u) with
      | none => rw [h1, h2] at hf; cases hf
      | some ts =>
        rw [h1] at this
        obtain ⟨t', ht'⟩ := Option.isSome_iff_exists.1 this.symm
        obtain ⟨ts', hts'⟩ := ih h2
        exact ⟨t' :: ts', by rw [List.mapM_cons, ht', hts']; rfl⟩

/-- **C77 (the closed loop stays defined).** Whether the controlled system can be given to the solver depends on the architecture of the controller only: if it can for
one controller, it can for every controller with the same layer sizes and activations, whatever the weights. -/
theorem C77_closed_loop_shape (lib : Lib) (sys : List AExpr) (n : ℕ) (k k' : Controller) (h : SameController k k') (f : List Term) (hf : closedLoop lib sys n k = .ok f) :
    ∃ f', closedLoop lib sys n k' = .ok f' := by
  unfold closedLoop closedSmt at hf ⊢
  cases e1 : k.toSymbolic lib (vars n) with
  | error e => rw [e1] at hf; cases hf
  | ok u =>
    rw [e1] at hf
    obtain ⟨u', e1', l1⟩ := toSymbolic_shape h e1
    rw [e1']
    have hget : ∀ j : ℕ, (u[j]?).isSome = (u'[j]?).isSome := by
      intro j
      by_cases hj : j < u.length
      · rw [List.getElem?_eq_getElem hj, List.getElem?_eq_getElem (by omega)]; rfl
      · rw [List.getElem?_eq_none (by omega), List.getElem?_eq_none (by omega)]
    by_cases hl : lib = .dreal
    · rw [if_pos hl] at hf ⊢
      simp only [parsedOpenDreal] at hf ⊢
      rw [l1]
      split_ifs at hf ⊢ with h1 h2
      have hin : ∀ i, (drealInput sys n u i).isSome = (drealInput sys n u' i).isSome := by
        intro i
        simp only [drealInput]
        cases (sys.flatMap AExpr.us)[i]? with
        | none => rfl
        | some j =>
          simp only
          split_ifs
          · rfl
          · exact hget _
      cases e2 : (numberSys 0 sys).mapM (AExpr.toTerm? (drealInput sys n u)) with
      | none => rw [e2] at hf; cases hf
      | some fs =>
        obtain ⟨fs', e2'⟩ := mapM_isSome hin _ e2
        rw [e2']
        exact ⟨fs', rfl⟩
    · rw [if_neg hl] at hf ⊢
      simp only [parsedOpen] at hf ⊢
      rw [l1]
      split_ifs at hf ⊢ with h1 h2
      cases e2 : sys.mapM (AExpr.toTerm? (fun i => u[(inputArgs sys).idxOf i]?)) with
      | none => rw [e2] at hf; cases hf
      | some fs =>
        obtain ⟨fs', e2'⟩ := mapM_isSome (u' := fun i => u'[(inputArgs sys).idxOf i]?) (fun i => hget _) _ e2
        rw [e2']
        exact ⟨fs', rfl⟩

theorem sameController_refl (k : Controller) : SameController k k := ⟨rfl, List.forall₂_same.2 fun _ _ => rfl⟩

theorem sameController_trans {a b c : Controller} (h1 : SameController a b) (h2 : SameController b c) : SameController a c := by
  refine ⟨h2.1.trans h1.1, ?_⟩
  have key : ∀ {x y z : List Mat}, List.Forall₂ (fun m m' : Mat => m'.map List.length = m.map List.length) x y →
      List.Forall₂ (fun m m' : Mat => m'.map List.length = m.map List.length) y z → List.Forall₂ (fun m m' : Mat => m'.map List.length = m.map List.length) x z := by
    intro x y z hxy
    induction hxy generalizing z with
    | nil => intro hyz; cases hyz; exact .nil
    | cons h _ ih => intro hyz; cases hyz with | cons h' hyz => exact .cons (h'.trans h) (ih hyz)
  exact key h1.2 h2.2

/-! ### training only reaches certificates and controllers of the initial architecture -/

open Classical in
/-- A learner that refuses states without a property of network and controller; used only in proofs. -/
noncomputable def guardBoth {N K P E : Type} (Q : N → K → Prop) (learn : LoopState N K P E → Except Err (N × K)) (st : LoopState N K P E) : Except Err (N × K) :=
  if Q st.net st.ctrl then learn st else .error .runtimeError

theorem loopBody_guardBoth {N K P E : Type} {cfg : LoopCfg} {C : Components N K P E} {Q : N → K → Prop} {st : LoopState N K P E} (h : Q st.net st.ctrl) :
    loopBody cfg { C with learn := guardBoth Q C.learn } st = loopBody cfg C st := by
  have e : guardBoth Q C.learn st = C.learn st := if_pos h
  unfold loopBody
  show Except.bind (guardBoth Q C.learn st) _ = Except.bind (C.learn st) _
  rw [e]
  rfl
theorem loopBody_both {N K P E : Type} {cfg : LoopCfg} {C : Components N K P E} {st st' : LoopState N K P E} {stop : Bool}
    (h : loopBody cfg C st = .ok (stop, st')) : C.learn st = .ok (st'.net, st'.ctrl) := by
  obtain ⟨m, kk, V, Vdot, found, cex, traj, st2, h1, -, -, -, rfl, h5⟩ := loopBody_inv h
  rw [h1]
  have : st2.net = m ∧ st2.ctrl = kk := by
    split at h5
    · rcases processCertificate_inv h5 with ⟨-, rfl, -⟩ | ⟨-, -, -, rfl⟩ <;> exact ⟨rfl, rfl⟩
    · split at h5
      · rw [h5.2]; exact ⟨rfl, rfl⟩
      · split at h5
        · rw [h5.2]; exact ⟨rfl, rfl⟩
        · refine ⟨processCex_net h5.2, ?_⟩
          have h6 := h5.2
          unfold processCex at h6
          split at h6
          · cases h6
          · split at h6
            · cases h6
            · cases h6; rfl
  show Except.ok (m, kk) = Except.ok (st2.net, st2.ctrl)
  rw [this.1, this.2]

theorem solves_guardBoth {N K P E : Type} {cfg : LoopCfg} {C : Components N K P E} {Q : N → K → Prop}
    (hQ : ∀ st n k, Q st.net st.ctrl → C.learn st = .ok (n, k) → Q n k)
    {net ctrl S out} (h0 : Q net ctrl) (h : Solves cfg C net ctrl S out) :
    Solves cfg { C with learn := guardBoth Q C.learn } net ctrl S out ∧ Q out.net out.ctrl := by
  obtain ⟨k, st, hs, hb⟩ := h
  have key : Q st.net st.ctrl ∧ Steps cfg { C with learn := guardBoth Q C.learn } (initState C net ctrl S) k st := by
    clear hb
    generalize hi : initState C net ctrl S = s0 at hs ⊢
    induction hs with
    | refl => subst hi; exact ⟨h0, .refl _⟩
    | @tail k0 st' st'' _ hb' ih =>
      obtain ⟨i1, i2⟩ := ih
      exact ⟨hQ _ _ _ i1 (loopBody_both hb'), .tail i2 (by rw [loopBody_guardBoth i1]; exact hb')⟩
  exact ⟨⟨k, st, key.2, by rw [loopBody_guardBoth key.1]; exact hb⟩, hQ _ _ _ key.1 (loopBody_both hb)⟩

theorem afterSteps_inv {Θ : Type} {step : ℕ → Θ → Θ} {Q : Θ → Prop} (h : ∀ t θ, Q θ → Q (step t θ)) (θ : Θ) (h0 : Q θ) : ∀ m, Q (afterSteps step m θ) := by
  intro m
  induction m with
  | zero => exact h0
  | succ m ih => exact h m _ ih

theorem soundWorld_estimateK {R K : Type} {c : SynthCfg} {w : World R K (Net × ℚ)} (h : SoundWorld c w) (g g' : Rng) : SoundWorld c (w.withEstimate g g' c) := by
  cases h with
  | smt w h1 h2 h3 => exact .smt _ h1 h2 h3
  | dreal w check stayCheck h1 h2 h3 h4 h5 h6 h7 h8 h9 h10 => exact .dreal _ check stayCheck h1 h2 h3 h4 h5 h6 h7 h8 h9 h10

/-! ### one network -/

variable {R : Type}

/-- A run started from a file that asks for a controller, for a certificate with one network: the texts describe the controlled vector field `F` with at most ten
inputs (each written only once if the verifier is dReal) and sets, the file is accepted with the initial weights `w0` of the controller, the solver is sound and gives
values for the variables when it answers "sat", the dynamics given to the solver are the closed loop of the system with the current controller, the optimiser changes
weights only, for RSWS the search for the level of the goal ends. -/
structure ControlFileRun (c : ControlConfig) (w0 : ℕ → ℕ → ℕ → ℚ) (r : ReadyControl) (m : ℕ) (F : Pt c.base.nVars → Pt m → Pt c.base.nVars)
    (w : World R Controller (Net × ℚ)) (T : Trainer Controller) (hidden : List ℕ) (acts : List ActivationType) : Prop where
  lib : c.base.lib = .z3 ∨ c.base.lib = .dreal
  domains : DomainsDescribed c.base
  system : ControlText (decide (c.base.lib = .dreal)) c.base.lib.funcs c.base.nVars m c.base.system F
  inputs : m ≤ 10
  accepted : readControl w0 c = .ok r
  iters : 0 ≤ c.base.maxIters
  sound : SoundWorld r.cfg w
  dynamics : ∀ k f, closedLoop c.base.lib r.sys c.base.nVars k = .ok f → w.dynamics k = f
  fair : FairWorld w c.base.nVars
  stay : c.base.cert = .RSWS → ∀ i V Vdot, ∃ k β, BetaRun (stayCheckFor w.backend (w.stayOracle i) r.cfg V Vdot) betaInit k β
  shape : ∀ i t θ, SameShape θ.1 (T.step i t θ).1 ∧ SameController θ.2 (T.step i t θ).2
  net : GoodNet c.base.lib c.base.llo hidden acts

theorem ready_control_cfg {c : ControlConfig} {w0 : ℕ → ℕ → ℕ → ℚ} {r : ReadyControl} (h : readControl w0 c = .ok r) :
    r.cfg = ⟨c.base.lib, c.base.nVars, c.base.cert, r.cfg.domains, c.base.llo, c.base.rounding, c.base.quad, c.base.maxIters⟩ := by
  obtain ⟨D, d, -, -, -, h⟩ := readSets_inv (readControl_inv h).2.1
  exact h

/-- **C77 (the initial data).** As C76, for files that ask for a controller. -/
theorem C77_initial_data (c : ControlConfig) (w0 : ℕ → ℕ → ℕ → ℚ) (r : ReadyControl) (hd : DomainsDescribed c.base) (h : readControl w0 c = .ok r) (fl : ℝ → ℚ)
    (g : ℕ → Rng) :
    ∃ S, initData fl g r.data = .ok S ∧ Dict.keys S = Dict.keys r.data ∧ (∀ l rows, Dict.get? S l = some rows → ∀ x ∈ rows, x.length = c.base.nVars) ∧
      ∀ l src N, Dict.get? r.data l = some src → exactCount src = some N → ∃ rows, Dict.get? S l = some rows ∧ rows.length = N := by
  obtain ⟨S, h1, h2, h3, h4⟩ := initData_total fl r.data g (accepted_plain hd (readControl_inv h).2.1).2
  exact ⟨S, h1, h2, fun l rows hl x hx => h3 _ (Dict.get?_eq_some_mem hl) x hx, fun l src N a b => h4 l N ⟨src, a, b⟩⟩

section
variable {c : ControlConfig} {w0 : ℕ → ℕ → ℕ → ℚ} {r : ReadyControl} {m : ℕ} {F : Pt c.base.nVars → Pt m → Pt c.base.nVars} {w : World R Controller (Net × ℚ)}
  {T : Trainer Controller} {hidden : List ℕ} {acts : List ActivationType}

/-- The guarantees of C59 hold for the modelled training: its runs are runs of a learner that only returns certificates and controllers of the initial architectures. -/
theorem controlFileRun_controlRun (h : ControlFileRun c w0 r m F w T hidden acts) (g g' : Rng) (discrete : Bool) {net : Net} (hnet : Arch c.base.lib c.base.nVars net) {b0 : ℚ} {S out}
    (hs : Solves r.cfg.loop (singleComponents (w.withEstimate g g' r.cfg) r.cfg discrete (trainedLearn T r.cfg discrete w.dynNum)) (net, b0) r.ctrl S out) :
    (∃ learn, ControlRun c r m F (w.withEstimate g g' r.cfg) learn ∧
      Solves r.cfg.loop (singleComponents (w.withEstimate g g' r.cfg) r.cfg discrete learn) (net, b0) r.ctrl S out) ∧ SameController r.ctrl out.ctrl ∧
      (ZeroNet net → ZeroNet out.net.1) := by
  have step : ∀ {Q : Net × Controller → Prop}, (∀ {a b}, SameShape a.1 b.1 ∧ SameController a.2 b.2 → Q a → Q b) → ∀ st n k, Q (st.net.1, st.ctrl) →
      trainedLearn T r.cfg discrete w.dynNum st = .ok (n, k) → Q (n.1, k) := by
    intro Q hQ st n k h0 hl
    obtain ⟨m, hm⟩ := trained_after (w := w) st n k hl
    have := afterSteps_inv (Q := Q) (step := T.step st.iters) (fun t θ hθ => hQ (h.shape st.iters t θ) hθ) (st.net.1, st.ctrl) h0 m
    rw [← hm] at this
    exact this
  have hA : ∀ {a b : Net × Controller}, SameShape a.1 b.1 ∧ SameController a.2 b.2 → (Arch c.base.lib c.base.nVars a.1 ∧ SameController r.ctrl a.2) →
      (Arch c.base.lib c.base.nVars b.1 ∧ SameController r.ctrl b.2) :=
    fun hab ha => ⟨⟨sameShape_usable hab.1 ha.1.1, sameShape_smooth hab.1 ha.1.2⟩, sameController_trans ha.2 hab.2⟩
  obtain ⟨f0, hf0⟩ := (readControl_inv h.accepted).2.2.2
  have main := solves_guardBoth (C := singleComponents (w.withEstimate g g' r.cfg) r.cfg discrete (trainedLearn T r.cfg discrete w.dynNum))
      (Q := fun (n : Net × ℚ) k => Arch c.base.lib c.base.nVars n.1 ∧ SameController r.ctrl k)
      (fun st n k => step (Q := fun θ => Arch c.base.lib c.base.nVars θ.1 ∧ SameController r.ctrl θ.2) hA st n k) ⟨hnet, sameController_refl _⟩ hs
  refine ⟨⟨guardBoth (fun (n : Net × ℚ) k => Arch c.base.lib c.base.nVars n.1 ∧ SameController r.ctrl k) (trainedLearn T r.cfg discrete w.dynNum), ⟨h.lib, h.domains,
    h.system, h.inputs, ⟨w0, h.accepted⟩, soundWorld_estimateK h.sound g g', fun st n k hl => ?_, fun st n k hl => ?_⟩, main.1⟩, main.2.2, fun hz => ?_⟩
  · unfold guardBoth at hl
    split_ifs at hl with hq
    have := step (Q := fun θ => Arch c.base.lib c.base.nVars θ.1 ∧ SameController r.ctrl θ.2) hA st n k hq hl
    obtain ⟨f, hf⟩ := C77_closed_loop_shape _ _ _ _ _ this.2 f0 hf0
    rw [hf]
    exact congrArg Except.ok (h.dynamics k f hf).symm
  · unfold guardBoth at hl
    split_ifs at hl with hq
    have := step (Q := fun θ => Arch c.base.lib c.base.nVars θ.1 ∧ SameController r.ctrl θ.2) hA st n k hq hl
    exact ⟨this.1.1.1.input, this.1.2⟩
  · exact (solves_guardBoth (C := singleComponents (w.withEstimate g g' r.cfg) r.cfg discrete (trainedLearn T r.cfg discrete w.dynNum))
      (Q := fun (n : Net × ℚ) _ => ZeroNet n.1) (fun st n k => step (Q := fun θ => ZeroNet θ.1) (fun hab hz => sameShape_zero hab.1 hz) st n k) hz hs).2

/-- **C77 (termination).** For every accepted file of a certificate with one network, every choice of random numbers, sound solver and optimiser that changes
weights only: the network is constructed, the data are drawn, and the run either returns after at most CEGIS_MAX_ITERS + 1 passes, or (Lyapunov only) raises because a
training sample has derivative exactly 0. -/
theorem C77_control_run_total (h : ControlFileRun c w0 r m F w T hidden acts) (hct : SingleCert c.base.cert) (discrete : Bool) (hrnd : discrete = true → c.base.rounding ≠ 0) (fl : ℝ → ℚ)
    (gs : ℕ → Rng) (g g' : Rng) (wt : ℕ → ℕ → ℕ → ℚ) (bs : ℕ → ℕ → ℚ) (hdraw : DrawsSome fl gs r.data) :
    ∃ net S, newNet c.base.nVars hidden acts c.base.llo (certBias c.base.cert) wt bs = .ok net ∧ initData fl gs r.data = .ok S ∧
      ((∃ out, Solves r.cfg.loop (singleComponents (w.withEstimate g g' r.cfg) r.cfg discrete (trainedLearn T r.cfg discrete w.dynNum)) (net, 0) r.ctrl S out ∧
        (out.iters : ℤ) ≤ c.base.maxIters + 1) ∨
      (c.base.cert = .LYAPUNOV ∧ ∃ k st, Steps r.cfg.loop (singleComponents (w.withEstimate g g' r.cfg) r.cfg discrete (trainedLearn T r.cfg discrete w.dynNum))
        (initState (singleComponents (w.withEstimate g g' r.cfg) r.cfg discrete (trainedLearn T r.cfg discrete w.dynNum)) (net, 0) r.ctrl S) k st ∧
        MeetsZeroDerivative T r.cfg discrete w.dynNum st)) := by
  obtain ⟨net, hn1, hn2, -⟩ := newNet_arch (n := c.base.nVars) h.net (certBias c.base.cert) wt bs
  obtain ⟨S, hS, hk, hw, -⟩ := C77_initial_data c w0 r h.domains h.accepted fl gs
  refine ⟨net, S, hn1, hS, ?_⟩
  have hset := (readControl_inv h.accepted).2.1
  obtain ⟨d, -, -, hcheck⟩ := readSets_check hset
  have hplain := accepted_plain h.domains hset
  have hus := accepted_usable h.domains hset
  have hlab := accepted_sets hct.2.2 hset
  have hcfg := ready_control_cfg h.accepted
  generalize r.cfg.domains = doms at *
  have hst := h.stay
  rw [hcfg] at hst ⊢
  rw [← hk] at hcheck
  exact C75_run_total_checked_single w ⟨c.base.lib, c.base.nVars, c.base.cert, doms, c.base.llo, c.base.rounding, c.base.quad, c.base.maxIters⟩ discrete T g g' h.lib hct h.iters hus hlab
    (fun _ P hP => plain_lyapunov (hplain.1 _ (Dict.get?_eq_some_mem hP))) hrnd h.fair hst (fun i t θ hu => sameShape_usable (h.shape i t θ).1 hu) (net, 0) r.ctrl S hn2.1
    (fun l p hp => ⟨hdraw S hS l p hp, hw l p hp⟩) (Dict.keys d) hcheck

/-- What holds for a run to the end: with the networks, the data and the returned state of C77_control_run_total, the guarantee `G` of a successful run. -/
theorem controlFileRun_total_with (h : ControlFileRun c w0 r m F w T hidden acts) (hct : SingleCert c.base.cert) (hl : c.base.cert ≠ .LYAPUNOV) (discrete : Bool)
    (hrnd : discrete = true → c.base.rounding ≠ 0) (fl : ℝ → ℚ) (gs : ℕ → Rng) (g g' : Rng) (wt : ℕ → ℕ → ℕ → ℚ) (bs : ℕ → ℕ → ℚ) (hdraw : DrawsSome fl gs r.data)
    {G : LoopState (Net × ℚ) Controller (List ℚ) Term → Prop}
    (hG : ∀ learn net ctrl S out, ControlRun c r m F (w.withEstimate g g' r.cfg) learn →
      Solves r.cfg.loop (singleComponents (w.withEstimate g g' r.cfg) r.cfg discrete learn) net ctrl S out → out.found = true → G out) :
    ∃ net S out, newNet c.base.nVars hidden acts c.base.llo (certBias c.base.cert) wt bs = .ok net ∧ initData fl gs r.data = .ok S ∧
      Solves r.cfg.loop (singleComponents (w.withEstimate g g' r.cfg) r.cfg discrete (trainedLearn T r.cfg discrete w.dynNum)) (net, 0) r.ctrl S out ∧
      (out.iters : ℤ) ≤ c.base.maxIters + 1 ∧ (out.found = true → G out) := by
  obtain ⟨net, S, h1, h2, h3⟩ := C77_control_run_total h hct discrete hrnd fl gs g g' wt bs hdraw
  rcases h3 with ⟨out, h3, h4⟩ | ⟨e, -⟩
  · obtain ⟨net', h1', h5, -⟩ := newNet_arch (n := c.base.nVars) h.net (certBias c.base.cert) wt bs
    rw [h1] at h1'; cases h1'
    obtain ⟨⟨learn, hr, hs⟩, -⟩ := controlFileRun_controlRun h g g' discrete h5 h3
    exact ⟨net, S, out, h1, h2, h3, h4, hG learn _ _ _ out hr hs⟩
  · exact absurd e hl

/-- **C77, safety.** For every accepted Barrier or BarrierAlt file, every choice of random numbers, sound solver and optimiser that changes weights only, the run
returns after at most CEGIS_MAX_ITERS + 1 passes; if it reports success, no trajectory of the written system driven by the returned controller (rounded to five decimals) that starts in the written
initial set and stays in the written domain reaches the written unsafe set. -/
theorem C77_control_safety (h : ControlFileRun c w0 r m F w T hidden acts) (hc : c.base.cert = .BARRIER ∨ c.base.cert = .BARRIERALT) (fl : ℝ → ℚ)
    (gs : ℕ → Rng) (g g' : Rng) (wt : ℕ → ℕ → ℕ → ℚ) (bs : ℕ → ℕ → ℚ) (hdraw : DrawsSome fl gs r.data)
    (I D U : Set (Pt c.base.nVars)) (hI : Configures c.base.nVars c.base.domains "XI" I) (hD : Configures c.base.nVars c.base.domains "XD" D) (hU : Configures c.base.nVars c.base.domains "XU" U) :
    ∃ net S out, newNet c.base.nVars hidden acts c.base.llo (certBias c.base.cert) wt bs = .ok net ∧ initData fl gs r.data = .ok S ∧
      Solves r.cfg.loop (singleComponents (w.withEstimate g g' r.cfg) r.cfg false (trainedLearn T r.cfg false w.dynNum)) (net, 0) r.ctrl S out ∧
      (out.iters : ℤ) ≤ c.base.maxIters + 1 ∧
      (out.found = true → ∀ (T : ℝ) (ξ : ℝ → Pt c.base.nVars), Trajectory (driven F (rounded5 out.ctrl)) T ξ → ξ 0 ∈ I → (∀ t ∈ Icc 0 T, ξ t ∈ D) → ∀ t ∈ Icc 0 T, ξ t ∉ U) :=
  controlFileRun_total_with h (by rcases hc with e | e <;> rw [e] <;> refine ⟨?_, ?_, ?_⟩ <;> intro h <;> cases h) (by rcases hc with e | e <;> rw [e] <;> decide)
    false (fun h => by cases h) fl gs g g' wt bs hdraw
    (fun learn net ctrl S out hr hs hf T' ξ a b d => C59_control_safety c r m F _ learn hr hc I D U hI hD hU _ _ _ out hs hf T' ξ a b d)

/-- **C77, discrete safety.** The same for BarrierAlt in discrete time with a non-zero rounding. -/
theorem C77_control_safety_dt (h : ControlFileRun c w0 r m F w T hidden acts) (hc : c.base.cert = .BARRIERALT) (hq : c.base.quad = false) (hrnd : c.base.rounding ≠ 0) (fl : ℝ → ℚ)
    (gs : ℕ → Rng) (g g' : Rng) (wt : ℕ → ℕ → ℕ → ℚ) (bs : ℕ → ℕ → ℚ) (hdraw : DrawsSome fl gs r.data)
    (I D U : Set (Pt c.base.nVars)) (hI : Configures c.base.nVars c.base.domains "XI" I) (hD : Configures c.base.nVars c.base.domains "XD" D) (hU : Configures c.base.nVars c.base.domains "XU" U) :
    ∃ net S out, newNet c.base.nVars hidden acts c.base.llo (certBias c.base.cert) wt bs = .ok net ∧ initData fl gs r.data = .ok S ∧
      Solves r.cfg.loop (singleComponents (w.withEstimate g g' r.cfg) r.cfg true (trainedLearn T r.cfg true w.dynNum)) (net, 0) r.ctrl S out ∧
      (out.iters : ℤ) ≤ c.base.maxIters + 1 ∧
      (out.found = true → ∀ x : ℕ → Pt c.base.nVars, IsRun (driven F (rounded5 out.ctrl)) x → x 0 ∈ I → ∀ k, (∀ j ≤ k, x j ∈ D) → x k ∉ U) :=
  controlFileRun_total_with h (by rw [hc]; refine ⟨?_, ?_, ?_⟩ <;> intro h <;> cases h) (by rw [hc]; decide) true (fun _ => hrnd) fl gs g g' wt bs hdraw
    (fun learn net ctrl S out hr hs hf x a b k d => C59_control_safety_dt c r m F _ learn hr hc hq I D U hI hD hU _ _ _ out hs hf x a b k d)

/-- **C77, reach while staying.** For every accepted file of a reach certificate the run returns; if it reports success there is a time bound within which every
trajectory of the written system driven by the returned controller from the written initial set reaches the written goal, in the written safe set until then. -/
theorem C77_control_reach (h : ControlFileRun c w0 r m F w T hidden acts) (hc : c.base.cert = .RWS ∨ c.base.cert = .RWA ∨ c.base.cert = .RSWS ∨ c.base.cert = .RSWA) (fl : ℝ → ℚ)
    (gs : ℕ → Rng) (g g' : Rng) (wt : ℕ → ℕ → ℕ → ℚ) (bs : ℕ → ℕ → ℚ) (hdraw : DrawsSome fl gs r.data)
    (I S D G : Set (Pt c.base.nVars)) (hI : Configures c.base.nVars c.base.domains "XI" I) (hS : Configures c.base.nVars c.base.domains "XS" S)
    (hD : Configures c.base.nVars c.base.domains "XD" D) (hG : Configures c.base.nVars c.base.domains "XG" G) (h1 : I ⊆ S) (h2 : I ⊆ D) (h3 : frontier S ⊆ D) :
    ∃ net S0 out, newNet c.base.nVars hidden acts c.base.llo (certBias c.base.cert) wt bs = .ok net ∧ initData fl gs r.data = .ok S0 ∧
      Solves r.cfg.loop (singleComponents (w.withEstimate g g' r.cfg) r.cfg false (trainedLearn T r.cfg false w.dynNum)) (net, 0) r.ctrl S0 out ∧
      (out.iters : ℤ) ≤ c.base.maxIters + 1 ∧
      (out.found = true → ∃ τ : ℝ, ∀ (T : ℝ) (ξ : ℝ → Pt c.base.nVars), Trajectory (driven F (rounded5 out.ctrl)) T ξ → τ ≤ T → ξ 0 ∈ I →
        (∃ t ∈ Icc 0 τ, ξ t ∈ G) ∧ ∀ t ∈ Icc 0 T, ξ t ∈ S ∨ ∃ r ∈ Icc 0 t, ξ r ∈ G) :=
  controlFileRun_total_with h (by rcases hc with e | e | e | e <;> rw [e] <;> refine ⟨?_, ?_, ?_⟩ <;> intro h <;> cases h)
    (by rcases hc with e | e | e | e <;> rw [e] <;> decide) false (fun h => by cases h) fl gs g g' wt bs hdraw
    (fun learn net ctrl S0 out hr hs hf => C59_control_reach c r m F _ learn hr hc I S D G hI hS hD hG h1 h2 h3 _ _ _ out hs hf)

/-- **C77, reach and stay.** For every accepted RSWS file the run returns (if the search for the level ends); if it reports success there is a time bound by which every
trajectory from the initial set is in the goal for ever, always in the safe set. -/
theorem C77_control_reach_stay (h : ControlFileRun c w0 r m F w T hidden acts) (hc : c.base.cert = .RSWS) (fl : ℝ → ℚ)
    (gs : ℕ → Rng) (g g' : Rng) (wt : ℕ → ℕ → ℕ → ℚ) (bs : ℕ → ℕ → ℚ) (hdraw : DrawsSome fl gs r.data)
    (I S D G : Set (Pt c.base.nVars)) (hI : Configures c.base.nVars c.base.domains "XI" I) (hS : Configures c.base.nVars c.base.domains "XS" S)
    (hD : Configures c.base.nVars c.base.domains "XD" D) (hG : Configures c.base.nVars c.base.domains "XG" G) (h1 : I ⊆ S) (h2 : I ⊆ D) (h3 : frontier S ⊆ D) (h4 : G ⊆ S) :
    ∃ net S0 out, newNet c.base.nVars hidden acts c.base.llo (certBias c.base.cert) wt bs = .ok net ∧ initData fl gs r.data = .ok S0 ∧
      Solves r.cfg.loop (singleComponents (w.withEstimate g g' r.cfg) r.cfg false (trainedLearn T r.cfg false w.dynNum)) (net, 0) r.ctrl S0 out ∧
      (out.iters : ℤ) ≤ c.base.maxIters + 1 ∧
      (out.found = true → ∃ τ : ℝ, ∀ (T : ℝ) (ξ : ℝ → Pt c.base.nVars), Trajectory (driven F (rounded5 out.ctrl)) T ξ → τ ≤ T → ξ 0 ∈ I →
        (∃ t₁ ∈ Icc 0 τ, ∀ t ∈ Icc t₁ T, ξ t ∈ G) ∧ ∀ t ∈ Icc 0 T, ξ t ∈ S) :=
  controlFileRun_total_with h (by rw [hc]; refine ⟨?_, ?_, ?_⟩ <;> intro h <;> cases h) (by rw [hc]; decide) false (fun h => by cases h) fl gs g g' wt bs hdraw
    (fun learn net ctrl S0 out hr hs hf => C59_control_reach_stay c r m F _ learn hr hc I S D G hI hS hD hG h1 h2 h3 h4 _ _ _ out hs hf)

/-- **C77, region of attraction.** For every accepted ROA file the run returns; if it reports success the written initial set lies in the sublevel set of the certificate at
1.1 β, and a trajectory from there, while further than 0.01 from the origin, stays in that sublevel set if it starts strictly inside. -/
theorem C77_control_roa (h : ControlFileRun c w0 r m F w T hidden acts) (hc : c.base.cert = .ROA) (fl : ℝ → ℚ)
    (gs : ℕ → Rng) (g g' : Rng) (wt : ℕ → ℕ → ℕ → ℚ) (bs : ℕ → ℕ → ℚ) (hdraw : DrawsSome fl gs r.data)
    (I : Set (Pt c.base.nVars)) (hI : Configures c.base.nVars c.base.domains "XI" I) :
    ∃ net S out, newNet c.base.nVars hidden acts c.base.llo (certBias c.base.cert) wt bs = .ok net ∧ initData fl gs r.data = .ok S ∧
      Solves r.cfg.loop (singleComponents (w.withEstimate g g' r.cfg) r.cfg false (trainedLearn T r.cfg false w.dynNum)) (net, 0) r.ctrl S out ∧
      (out.iters : ℤ) ≤ c.base.maxIters + 1 ∧
      (out.found = true → (∀ p ∈ I, certValue c.base.rounding c.base.quad out.net.1 p ≤ (out.net.2 : ℝ) * (11/10)) ∧
        ∀ (T : ℝ) (ξ : ℝ → Pt c.base.nVars), Trajectory (driven F (rounded5 out.ctrl)) T ξ → 0 ≤ T → ξ 0 ∈ I → (∀ t ∈ Icc 0 T, (1/100)^2 < normSq (ξ t)) →
          (c.base.llo = true ∨ certValue c.base.rounding c.base.quad out.net.1 (ξ 0) < (out.net.2 : ℝ) * (11/10)) →
            ∀ t ∈ Icc 0 T, certValue c.base.rounding c.base.quad out.net.1 (ξ t) ≤ (out.net.2 : ℝ) * (11/10)) :=
  controlFileRun_total_with h (by rw [hc]; refine ⟨?_, ?_, ?_⟩ <;> intro h <;> cases h) (by rw [hc]; decide) false (fun h => by cases h) fl gs g g' wt bs hdraw
    (fun learn net ctrl S0 out hr hs hf => by
      obtain ⟨a, b⟩ := C59_control_roa c r m F _ learn hr hc I hI _ _ _ out hs hf
      exact ⟨a, fun T' ξ x1 x2 x3 x4 => (b T' ξ x1 x2 x3 x4).1⟩)

/-- **C77, stability.** For every accepted Lyapunov file without LLO whose activations vanish at 0 and whose domain is a neighbourhood of the origin, with a continuous
vector field: the run returns after at most CEGIS_MAX_ITERS + 1 passes or raises because a training sample has derivative exactly 0, and if it reports success the origin
is asymptotically stable for the written system driven by the returned controller. -/
theorem C77_control_stability (h : ControlFileRun c w0 r m F w T hidden acts) (hc : c.base.cert = .LYAPUNOV) (hllo : c.base.llo = false)
    (hz : Vanishing acts) (fl : ℝ → ℚ)
    (gs : ℕ → Rng) (g g' : Rng) (wt : ℕ → ℕ → ℕ → ℚ) (bs : ℕ → ℕ → ℚ) (hdraw : DrawsSome fl gs r.data)
    (D : Set (Pt c.base.nVars)) (hD : Configures c.base.nVars c.base.domains "XD" D) (hn : D ∈ nhds 0) (hF : Continuous (fun z : Pt c.base.nVars × Pt m => F z.1 z.2)) :
    ∃ net S, newNet c.base.nVars hidden acts c.base.llo (certBias c.base.cert) wt bs = .ok net ∧ initData fl gs r.data = .ok S ∧
      ((∃ out, Solves r.cfg.loop (singleComponents (w.withEstimate g g' r.cfg) r.cfg false (trainedLearn T r.cfg false w.dynNum)) (net, 0) r.ctrl S out ∧
        (out.iters : ℤ) ≤ c.base.maxIters + 1 ∧ (out.found = true → AsympStable (driven F (rounded5 out.ctrl)))) ∨
      (∃ k st, Steps r.cfg.loop (singleComponents (w.withEstimate g g' r.cfg) r.cfg false (trainedLearn T r.cfg false w.dynNum))
        (initState (singleComponents (w.withEstimate g g' r.cfg) r.cfg false (trainedLearn T r.cfg false w.dynNum)) (net, 0) r.ctrl S) k st ∧
        MeetsZeroDerivative T r.cfg false w.dynNum st)) := by
  obtain ⟨net, S, h1, h2, h3⟩ := C77_control_run_total h (by rw [hc]; refine ⟨?_, ?_, ?_⟩ <;> intro h <;> cases h) false (fun h => by cases h) fl gs g g' wt bs hdraw
  refine ⟨net, S, h1, h2, ?_⟩
  rcases h3 with ⟨out, h3, h4⟩ | ⟨-, h3⟩
  · obtain ⟨net', h1', h5, h6⟩ := newNet_arch (n := c.base.nVars) h.net (certBias c.base.cert) wt bs
    rw [h1] at h1'; cases h1'
    obtain ⟨⟨learn, hr, hs⟩, -, hz'⟩ := controlFileRun_controlRun h g g' false h5 h3
    exact Or.inl ⟨out, h3, h4, fun hf => C59_control_stability c r m F _ learn hr hc D hD hn _ _ _ out hs hf hF (Or.inl hllo) (Or.inr (hz' (h6 (by rw [hc]; rfl) hz)))⟩
  · exact Or.inr h3

end


/-! ### two networks -/

/-- As `ControlFileRun`, for the certificates with two networks. -/
structure ControlFileRun2 (c : ControlConfig) (w0 : ℕ → ℕ → ℕ → ℚ) (r : ReadyControl) (m : ℕ) (F : Pt c.base.nVars → Pt m → Pt c.base.nVars)
    (w : World R Controller ((Net × ℚ) × Net)) (T : Trainer2 Controller) (hidden hidden2 : List ℕ) (acts acts2 : List ActivationType) : Prop where
  lib : c.base.lib = .z3 ∨ c.base.lib = .dreal
  domains : DomainsDescribed c.base
  system : ControlText (decide (c.base.lib = .dreal)) c.base.lib.funcs c.base.nVars m c.base.system F
  inputs : m ≤ 10
  accepted : readControl w0 c = .ok r
  iters : 0 ≤ c.base.maxIters
  sound : SoundWorld r.cfg w
  dynamics : ∀ k f, closedLoop c.base.lib r.sys c.base.nVars k = .ok f → w.dynamics k = f
  fair : FairWorld w c.base.nVars
  shape : ∀ i t θ, SameShape θ.1.1 (T.step i t θ).1.1 ∧ SameShape θ.1.2 (T.step i t θ).1.2 ∧ SameController θ.2 (T.step i t θ).2
  net : GoodNet c.base.lib c.base.llo hidden acts
  net2 : GoodNet c.base.lib false hidden2 acts2

section
variable {c : ControlConfig} {w0 : ℕ → ℕ → ℕ → ℚ} {r : ReadyControl} {m : ℕ} {F : Pt c.base.nVars → Pt m → Pt c.base.nVars}
  {w : World R Controller ((Net × ℚ) × Net)} {T : Trainer2 Controller} {hidden hidden2 : List ℕ} {acts acts2 : List ActivationType}

theorem controlFileRun2_controlRun (h : ControlFileRun2 c w0 r m F w T hidden hidden2 acts acts2) {net net2 : Net} (hnet : Arch c.base.lib c.base.nVars net)
    (hnet2 : Arch c.base.lib c.base.nVars net2) {b0 : ℚ} {S out}
    (hs : Solves r.cfg.loop (doubleComponents w r.cfg (trainedLearn2 T r.cfg w.dynNum)) ((net, b0), net2) r.ctrl S out) :
    ∃ learn, ControlRun2 c r m F w learn ∧ Solves r.cfg.loop (doubleComponents w r.cfg learn) ((net, b0), net2) r.ctrl S out := by
  let Q : (Net × Net) × Controller → Prop := fun θ => (Arch c.base.lib c.base.nVars θ.1.1 ∧ Arch c.base.lib c.base.nVars θ.1.2) ∧ SameController r.ctrl θ.2
  have hA : ∀ {a b}, SameShape a b → Arch c.base.lib c.base.nVars a → Arch c.base.lib c.base.nVars b := fun hab ha => ⟨sameShape_usable hab ha.1, sameShape_smooth hab ha.2⟩
  have step : ∀ st n k, Q ((st.net.1.1, st.net.2), st.ctrl) → trainedLearn2 T r.cfg w.dynNum st = .ok (n, k) → Q ((n.1.1, n.2), k) := by
    intro st n k h0 hl
    obtain ⟨m, hm⟩ := trained_after2 hl
    have := afterSteps_inv (Q := Q) (step := T.step st.iters) (fun t θ hθ => ⟨⟨hA (h.shape st.iters t θ).1 hθ.1.1, hA (h.shape st.iters t θ).2.1 hθ.1.2⟩,
      sameController_trans hθ.2 (h.shape st.iters t θ).2.2⟩) ((st.net.1.1, st.net.2), st.ctrl) h0 m
    rw [← hm] at this
    exact this
  obtain ⟨f0, hf0⟩ := (readControl_inv h.accepted).2.2.2
  have main := solves_guardBoth (C := doubleComponents w r.cfg (trainedLearn2 T r.cfg w.dynNum)) (Q := fun (n : (Net × ℚ) × Net) k => Q ((n.1.1, n.2), k))
      (fun st n k => step st n k) ⟨⟨hnet, hnet2⟩, sameController_refl _⟩ hs
  refine ⟨guardBoth (fun (n : (Net × ℚ) × Net) k => Q ((n.1.1, n.2), k)) (trainedLearn2 T r.cfg w.dynNum), ⟨h.lib, h.domains, h.system, h.inputs, ⟨w0, h.accepted⟩,
    h.sound, fun st n k hl => ?_, fun st n k hl => ?_⟩, main.1⟩
  · unfold guardBoth at hl
    split_ifs at hl with hq
    have := step st n k hq hl
    obtain ⟨f, hf⟩ := C77_closed_loop_shape _ _ _ _ _ this.2 f0 hf0
    rw [hf]
    exact congrArg Except.ok (h.dynamics k f hf).symm
  · unfold guardBoth at hl
    split_ifs at hl with hq
    have := step st n k hq hl
    exact ⟨⟨this.1.1.1.1.input, this.1.1.2⟩, this.1.2.1.1.input, this.1.2.2⟩

/-- A file with two networks, run to its end, and the guarantee of a successful run. -/
theorem controlFileRun2_total_with (h : ControlFileRun2 c w0 r m F w T hidden hidden2 acts acts2) (hct : c.base.cert = .STABLESAFE ∨ c.base.cert = .RAR) (fl : ℝ → ℚ)
    (gs : ℕ → Rng) (wt wt2 : ℕ → ℕ → ℕ → ℚ) (bs bs2 : ℕ → ℕ → ℚ) (hdraw : DrawsSome fl gs r.data)
    {G : LoopState ((Net × ℚ) × Net) Controller (List ℚ) (Term × Term) → Prop}
    (hG : ∀ learn net ctrl S out, ControlRun2 c r m F w learn → Solves r.cfg.loop (doubleComponents w r.cfg learn) net ctrl S out → out.found = true → G out) :
    ∃ net net2 S out, newNet c.base.nVars hidden acts c.base.llo (certBias2 c.base.cert).1 wt bs = .ok net ∧
      newNet c.base.nVars hidden2 acts2 false (certBias2 c.base.cert).2 wt2 bs2 = .ok net2 ∧ initData fl gs r.data = .ok S ∧
      Solves r.cfg.loop (doubleComponents w r.cfg (trainedLearn2 T r.cfg w.dynNum)) ((net, 0), net2) r.ctrl S out ∧
      (out.iters : ℤ) ≤ c.base.maxIters + 1 ∧ (out.found = true → G out) := by
  obtain ⟨net, hn1, hn2, -⟩ := newNet_arch (n := c.base.nVars) h.net (certBias2 c.base.cert).1 wt bs
  obtain ⟨net2, hm1, hm2, -⟩ := newNet_arch (n := c.base.nVars) h.net2 (certBias2 c.base.cert).2 wt2 bs2
  obtain ⟨S, hS, hk, hw, -⟩ := C77_initial_data c w0 r h.domains h.accepted fl gs
  have hset := (readControl_inv h.accepted).2.1
  obtain ⟨d, -, -, hcheck⟩ := readSets_check hset
  have hplain := accepted_plain h.domains hset
  have hus := accepted_usable h.domains hset
  have hlab := accepted_sets (by rcases hct with e | e <;> rw [e] <;> decide) hset
  have hcfg := ready_control_cfg h.accepted
  have hnd : (Dict.keys S).Nodup := by
    rw [hk]
    obtain ⟨D, d, -, h3, -⟩ := readSets_inv hset
    exact parseConfig_nodup h3
  obtain ⟨out, h3, h4⟩ : ∃ out, Solves r.cfg.loop (doubleComponents w r.cfg (trainedLearn2 T r.cfg w.dynNum)) ((net, 0), net2) r.ctrl S out ∧
      (out.iters : ℤ) ≤ c.base.maxIters + 1 := by
    generalize r.cfg.domains = doms at *
    rw [hcfg]
    rw [← hk] at hcheck
    exact C75_run_total_checked w ⟨c.base.lib, c.base.nVars, c.base.cert, doms, c.base.llo, c.base.rounding, c.base.quad, c.base.maxIters⟩ T h.lib hct h.iters hus hlab h.fair
      (fun i t θ hu => ⟨sameShape_usable (h.shape i t θ).1 hu.1, sameShape_usable (h.shape i t θ).2.1 hu.2⟩) ((net, 0), net2) r.ctrl S ⟨hn2.1, hm2.1⟩ hnd
      (fun l p hp => ⟨hdraw S hS l p hp, hw l p hp⟩) (Dict.keys d) hcheck
  obtain ⟨learn, hr, hs⟩ := controlFileRun2_controlRun h hn2 hm2 h3
  exact ⟨net, net2, S, out, hn1, hm1, hS, h3, h4, hG learn _ _ _ out hr hs⟩

/-- **C77, stable while safe.** For every accepted StableSafe file the run returns after at most CEGIS_MAX_ITERS + 1 passes; if it reports success, no trajectory of the
written system driven by the returned controller from the written initial set, inside the written domain, reaches the written unsafe set. -/
theorem C77_control_stable_safe (h : ControlFileRun2 c w0 r m F w T hidden hidden2 acts acts2) (hc : c.base.cert = .STABLESAFE) (fl : ℝ → ℚ)
    (gs : ℕ → Rng) (wt wt2 : ℕ → ℕ → ℕ → ℚ) (bs bs2 : ℕ → ℕ → ℚ) (hdraw : DrawsSome fl gs r.data)
    (I D U : Set (Pt c.base.nVars)) (hI : Configures c.base.nVars c.base.domains "XI" I) (hD : Configures c.base.nVars c.base.domains "XD" D) (hU : Configures c.base.nVars c.base.domains "XU" U) :
    ∃ net net2 S out, newNet c.base.nVars hidden acts c.base.llo (certBias2 c.base.cert).1 wt bs = .ok net ∧
      newNet c.base.nVars hidden2 acts2 false (certBias2 c.base.cert).2 wt2 bs2 = .ok net2 ∧ initData fl gs r.data = .ok S ∧
      Solves r.cfg.loop (doubleComponents w r.cfg (trainedLearn2 T r.cfg w.dynNum)) ((net, 0), net2) r.ctrl S out ∧ (out.iters : ℤ) ≤ c.base.maxIters + 1 ∧
      (out.found = true → ∀ (T : ℝ) (ξ : ℝ → Pt c.base.nVars), Trajectory (driven F (rounded5 out.ctrl)) T ξ → ξ 0 ∈ I → (∀ t ∈ Icc 0 T, ξ t ∈ D) → ∀ t ∈ Icc 0 T, ξ t ∉ U) :=
  controlFileRun2_total_with h (Or.inl hc) fl gs wt wt2 bs bs2 hdraw
    (fun learn net ctrl S out hr hs hf T' ξ a b d => C59_control_stable_safe c r m F w learn hr hc I D U hI hD hU _ _ _ out hs hf T' ξ a b d)

/-- **C77, reach, avoid, remain.** For every accepted RAR file the run returns after at most CEGIS_MAX_ITERS + 1 passes; if it reports success there is a time bound within
which every trajectory from the initial set, inside the domain, reaches the goal, in the safe set until then, and once in the goal it stays in the
final set. -/
theorem C77_control_rar (h : ControlFileRun2 c w0 r m F w T hidden hidden2 acts acts2) (hc : c.base.cert = .RAR) (fl : ℝ → ℚ)
    (gs : ℕ → Rng) (wt wt2 : ℕ → ℕ → ℕ → ℚ) (bs bs2 : ℕ → ℕ → ℚ) (hdraw : DrawsSome fl gs r.data)
    (I S D G P : Set (Pt c.base.nVars)) (hI : Configures c.base.nVars c.base.domains "XI" I)
    (hS : Configures c.base.nVars c.base.domains "XS" S) (hD : Configures c.base.nVars c.base.domains "XD" D) (hG : Configures c.base.nVars c.base.domains "XG" G)
    (hP : Configures c.base.nVars c.base.domains "XF" P) (h1 : I ⊆ S) (h2 : I ⊆ D) (h3 : frontier S ⊆ D) :
    ∃ net net2 S0 out, newNet c.base.nVars hidden acts c.base.llo (certBias2 c.base.cert).1 wt bs = .ok net ∧
      newNet c.base.nVars hidden2 acts2 false (certBias2 c.base.cert).2 wt2 bs2 = .ok net2 ∧ initData fl gs r.data = .ok S0 ∧
      Solves r.cfg.loop (doubleComponents w r.cfg (trainedLearn2 T r.cfg w.dynNum)) ((net, 0), net2) r.ctrl S0 out ∧ (out.iters : ℤ) ≤ c.base.maxIters + 1 ∧
      (out.found = true → ∃ τ : ℝ, ∀ (T : ℝ) (ξ : ℝ → Pt c.base.nVars), Trajectory (driven F (rounded5 out.ctrl)) T ξ → τ ≤ T → ξ 0 ∈ I → (∀ t ∈ Icc 0 T, ξ t ∈ D) →
        (∃ t ∈ Icc 0 τ, ξ t ∈ G) ∧ (∀ t ∈ Icc 0 T, ξ t ∈ S ∨ ∃ r ∈ Icc 0 t, ξ r ∈ G) ∧ ∀ r ∈ Icc 0 T, ξ r ∈ G → ∀ t ∈ Icc r T, ξ t ∈ P) :=
  controlFileRun2_total_with h (Or.inr hc) fl gs wt wt2 bs bs2 hdraw
    (fun learn net ctrl S0 out hr hs hf => C59_control_rar c r m F w learn hr hc I S D G P hI hS hD hG hP h1 h2 h3 _ _ _ out hs hf)

end


/-! ### example -/

/-- **C77 (some data).** As C76, for files that ask for a controller. -/
theorem C77_draws_some (c : ControlConfig) (w0 : ℕ → ℕ → ℕ → ℚ) (r : ReadyControl) (hd : DomainsDescribed c.base) (h : readControl w0 c = .ok r)
    (hc : c.base.cert = .LYAPUNOV ∨ c.base.cert = .ROA ∨ c.base.cert = .BARRIER ∨ c.base.cert = .BARRIERALT ∨ c.base.cert = .STABLESAFE)
    (hn : PositiveCounts c.base.nData) (fl : ℝ → ℚ) (g : ℕ → Rng) : DrawsSome fl g r.data :=
  sets_draw_some c.base hd (readControl_inv h).2.1 hc hn fl g

/-- A trainer that changes nothing. -/
def exTrainerK : Trainer Controller := ⟨fun _ _ θ => θ, true, true, fun _ => 0⟩

/-- The closed loops of all controllers of the example, of the right length where the code would raise. -/
noncomputable def exLoops (k : Controller) : List Term :=
  match closedLoop .z3 [.sub (.u 0) (.x 0)] 1 k with
  | .ok f => f
  | .error _ => [.const 0]

/-- Initial weights of the controller of the example. -/
def exWeights : ℕ → ℕ → ℕ → ℚ := fun k _ _ => if k = 0 then 1 else -1

theorem exControlFile_ready : ∃ data, readControl exWeights (exControl .z3) =
    .ok ⟨⟨.z3, 1, .BARRIER, (exBarrier .BARRIER).domains, false, 3, false, 10⟩, [.sub (.u 0) (.x 0)], exControlNet, data⟩ := by
  obtain ⟨data, h⟩ := exConfig_readyL .z3 (Or.inl rfl) .BARRIER (Or.inl rfl)
  have h' := (readConfig_inv h).2
  exact ⟨data, readControl_ok (exControl_read .z3 (Or.inl rfl)) rfl (exControl_closed .z3 (Or.inl rfl) (-1) (by decide +kernel)) h'⟩

theorem exControl_domains : DomainsDescribed (exControl .z3).base := by
  obtain ⟨s1, s2, s3⟩ := exConfig_sets
  refine ⟨by decide, ?_⟩
  intro k s hm
  simp only [exControl, exConfigL, List.mem_cons, Prod.mk.injEq, List.not_mem_nil, or_false] at hm
  rcases hm with ⟨-, rfl⟩ | ⟨-, rfl⟩ | ⟨-, rfl⟩
  exacts [⟨_, s1⟩, ⟨_, s2⟩, ⟨_, s3⟩]

theorem exLoops_length (k : Controller) : (exLoops k).length = 1 := by
  unfold exLoops
  split
  · rename_i f hf
    exact (control_field (exControl_read .z3 (Or.inl rfl)) (exControl_text false _) (by decide) (by intro h; cases h) hf).2.1
  · rfl

/-- A file with a controller, a solver and an optimiser meeting the hypotheses of the theorems above. -/
theorem exControlFile_run : ∃ r, ControlFileRun (exControl .z3) exWeights r 1 exControlField (idealWorldK (Net × ℚ) exLoops) exTrainerK [1] [.SQUARE] ∧
    r.cfg = ⟨.z3, 1, .BARRIER, (exBarrier .BARRIER).domains, false, 3, false, 10⟩ ∧ r.ctrl = exControlNet ∧ ∀ fl g, DrawsSome fl g r.data := by
  obtain ⟨data, hr⟩ := exControlFile_ready
  refine ⟨_, ⟨Or.inl rfl, exControl_domains, exControl_text _ _, by decide, hr, by decide, idealWorldK_sound _ _ _, fun k f hf => ?_, ⟨exLoops_length, fun _ x hx => hx,
    fun i k φ h => ?_, fun _ _ _ _ => ⟨[], rfl, fun _ => rfl, fun r hr => by cases hr⟩⟩, (fun h => by cases h), fun _ _ _ => ⟨sameShape_refl _, sameController_refl _⟩,
    exFile_good⟩, rfl, rfl, fun fl g => C77_draws_some (exControl .z3) _ _ exControl_domains hr
    (by simp [exControl, exConfigL]) ?_ fl g⟩
  · show exLoops k = f
    unfold exLoops
    have hf : closedLoop .z3 [.sub (.u 0) (.x 0)] 1 k = .ok f := hf
    rw [hf]
  · have h : smtBackend.isSat (idealSolver φ) = true := h
    unfold idealSolver at h
    split at h <;> cases h
  · show ∀ e ∈ [("XD", 10), ("XI", 10), ("XU", 10)], 0 < e.2
    decide

/-- Non-vacuity of the theorems of this file: the run of the example file reports success, whatever data are drawn. -/
theorem exControlFile_succeeds (fl : ℝ → ℚ) (gs : ℕ → Rng) (g g' : Rng) : ∃ r S out,
    ControlFileRun (exControl .z3) exWeights r 1 exControlField (idealWorldK (Net × ℚ) exLoops) exTrainerK [1] [.SQUARE] ∧ DrawsSome fl gs r.data ∧
    initData fl gs r.data = .ok S ∧
    Solves r.cfg.loop (singleComponents ((idealWorldK (Net × ℚ) exLoops).withEstimate g g' r.cfg) r.cfg false
      (trainedLearn exTrainerK r.cfg false (idealWorldK (Net × ℚ) exLoops).dynNum)) ((exBarrier .BARRIER).net, 0) r.ctrl S out ∧ out.found = true := by
  obtain ⟨r, hr, hcfg, hctrl, hdr⟩ := exControlFile_run
  obtain ⟨S, hS, hk, hw, -⟩ := C77_initial_data _ _ r hr.domains hr.accepted fl gs
  refine ⟨r, S, ?_⟩
  suffices h : ∃ out, Solves r.cfg.loop (singleComponents ((idealWorldK (Net × ℚ) exLoops).withEstimate g g' r.cfg) r.cfg false
      (trainedLearn exTrainerK r.cfg false (idealWorldK (Net × ℚ) exLoops).dynNum)) ((exBarrier .BARRIER).net, 0) r.ctrl S out ∧ out.found = true by
    obtain ⟨out, h⟩ := h
    exact ⟨out, hr, hdr fl gs, hS, h⟩
  obtain ⟨d, -, -, hcheck⟩ := readSets_check (readControl_inv hr.accepted).2.1
  rw [← hk] at hcheck
  obtain ⟨l1, -, l3⟩ := checked_labels (ct := .BARRIER) (by decide) hcheck
  obtain ⟨net', e1, hnet, -⟩ := newNet_arch (n := 1) exFile_good true (fun _ _ _ => 1) (fun k _ => if k = 0 then 0 else -1)
  rw [exFile_net] at e1; cases e1
  have hdata : TrainData 1 .BARRIER S (Dict.mapVals (List.map fun x => x) S) := initState_data (fun x hx => hx) hw (fun l hl => by
    obtain ⟨p, hp⟩ := Option.isSome_iff_exists.1 (Dict.get?_isSome_iff.2 (l1 l hl))
    exact ⟨p, hp, hdr fl gs S hS l p hp⟩) l3
  rw [hcfg, hctrl]
  set cfg : SynthCfg := ⟨.z3, 1, .BARRIER, (exBarrier .BARRIER).domains, false, 3, false, 10⟩ with hcfg'
  set w := idealWorldK (Net × ℚ) exLoops with hwd
  set C := singleComponents (w.withEstimate g g' cfg) cfg false (trainedLearn exTrainerK cfg false w.dynNum) with hC
  obtain ⟨⟨n, b1⟩, k, hl, -⟩ : ∃ n k, trainedLearn exTrainerK cfg false w.dynNum (initState C ((exBarrier .BARRIER).net, 0) exControlNet S) = .ok (n, k) ∧ Usable .z3 1 n.1 := by
    rcases trainedLearn_total exTrainerK cfg false w.dynNum (by refine ⟨?_, ?_, ?_⟩ <;> intro h <;> cases h) (fun _ _ _ h => h)
      (initState C ((exBarrier .BARRIER).net, 0) exControlNet S) hnet.1 hdata with ⟨h, -⟩ | h
    · cases h
    · exact h
  obtain ⟨m, hm⟩ := trained_after (w := w) _ _ _ hl
  have hid : ∀ i m θ, afterSteps (exTrainerK.step i) m θ = θ := by
    intro i m θ
    induction m with
    | zero => rfl
    | succ m ih => exact ih
  rw [hid] at hm
  obtain rfl : n = (exBarrier .BARRIER).net := congrArg Prod.fst hm
  obtain rfl : k = exControlNet := congrArg Prod.snd hm
  obtain ⟨gr, hq, hd, ha⟩ := exControl_refuted
  obtain ⟨cex, hv⟩ := ideal_verifies 1 gr hd ha
  have hdyn : exLoops exControlNet = exControlDyn (-1) := by
    have := exControl_closed .z3 (Or.inl rfl) (-1) (by decide +kernel)
    unfold exLoops
    rw [show exControlNet = ⟨[[[1]], [[-1]]], [some .identity]⟩ from rfl, this]
  unfold queriesCT at hq
  obtain ⟨d, hdd, hq⟩ := except_bind_ok hq
  obtain ⟨⟨V, Vdot⟩, ht, hq⟩ := except_bind_ok hq
  obtain ⟨out, o1, o2, -⟩ := first_pass_when cfg.loop C ((exBarrier .BARRIER).net, 0) exControlNet S ((exBarrier .BARRIER).net, b1) exControlNet V Vdot cex [] hl
    (by
      show translateCT .z3 3 none false (exBarrier .BARRIER).net (vars 1) (exLoops exControlNet) = _
      rw [hdyn]; exact ht) (by
    have hdd' : initialiseDomains cfg.lib cfg.nVars cfg.cert cfg.domains = .ok d := hdd
    have hq' : singleConstraints cfg.cert cfg.nVars cfg.llo b1 d V Vdot = .ok gr := hq
    have hv' : verify w.backend cfg.nVars (w.noise 0) (w.oracle 0) gr = .ok ⟨true, cex⟩ := hv
    rw [hC]
    simp only [singleComponents, World.withEstimate, bind, Except.bind, hdd', hq', hv', pure, Except.pure]) rfl (fun h => by rcases h with h | h <;> cases h) (fun h => by cases h)
  exact ⟨out, o1, o2⟩

end Fossil

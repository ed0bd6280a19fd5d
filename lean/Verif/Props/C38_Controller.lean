/-
C38: the symbolic controller handed to the solver is the numeric controller with its weights rounded to five decimals, for every
architecture; the closed loop that is verified is the open loop driven by that rounded controller. What is returned to the user is the
unrounded one.
-/
import Verif.Controller
import Verif.Lemmas.Net
import Verif.Props.C33_Binding
import Verif.Props.C17_Rounding
import Verif.Props.C46_EndToEnd

namespace Fossil
open Spec Set

namespace Spec

/-- The controller with every weight rounded to five decimals. -/
def rounded5 (c : Controller) : Controller := ⟨c.layers.map (fun w => w.map (fun r => r.map (roundBy 5))), c.acts⟩

/-- Every weight of the controller has at most five decimals. -/
def OnGrid5 (c : Controller) : Prop := ∀ w ∈ c.layers, ∀ r ∈ w, ∀ q ∈ r, ∃ m : ℤ, q = m / 10 ^ 5

/-- The ordinary feed-forward network: alternately a matrix and an activation, a final matrix. -/
noncomputable def feedForward : List (Mat × Act) → Mat → List ℝ → List ℝ
  | [], out, y => out.map (dotR · y)
  | (w, a) :: ls, out, y => feedForward ls out (a.forward (w.map (dotR · y)))

/-- Matrix with `rows` rows and `cols` columns. -/
def HasShape (w : Mat) (rows cols : ℕ) : Prop := w.length = rows ∧ ∀ r ∈ w, r.length = cols

/-- A vector field given by a list-valued function. -/
noncomputable def listField (n : ℕ) (g : List ℝ → Except Err (List ℝ)) (p : Pt n) : Pt n := fun i =>
  match g (coordList p) with
  | .ok y => y.getD i 0
  | .error _ => 0

/-- Symbolic and numeric side of an open-loop model say the same. -/
def Agree (o : OpenLoop) (v : List Term) : Prop :=
  ∀ (u f : List Term) (ρ : Env), o.smt v u = .ok f →
    o.num (v.map (Term.eval ρ)) (u.map (Term.eval ρ)) = .ok (f.map (Term.eval ρ))

end Spec

theorem round5_eq (w : Mat) : round5 w = w.map (fun r => r.map (roundBy 5)) := rfl

theorem matVec_linear {w : Mat} {y z : List Term} (h : matVec w y = .ok z) (ρ : Env) :
    linear w (y.map (Term.eval ρ)) = .ok (z.map (Term.eval ρ)) := by
  obtain ⟨hl, _⟩ := matVec_ok h
  rw [linear, if_pos, matVec_eval h ρ]
  simpa using hl

theorem zipSym_eval {lib : Lib} : ∀ {as : List (Option Act)} {ws : List Mat} {y y' : List Term},
    zipSym lib as ws y = .ok y' → ∀ ρ : Env,
    zipForward as (ws.map (fun w => w.map (fun r => r.map (roundBy 5)))) (y.map (Term.eval ρ)) = .ok (y'.map (Term.eval ρ)) := by
  intro as
  induction as with
  | nil => intro ws y y' h ρ; simp only [zipSym] at h; cases h; simp [zipForward]
  | cons a as ih =>
    intro ws y y' h ρ
    cases ws with
    | nil => simp only [zipSym] at h; cases h; simp [zipForward]
    | cons w ws =>
      simp only [zipSym] at h
      split at h
      · cases h
      rename_i z hz
      split at h
      · cases h
      rename_i y1 hy1
      have hl := matVec_linear hz ρ
      rw [round5_eq] at hl
      cases a with
      | none => cases hy1
      | some a =>
        have ha : a.forwardSym lib z = .ok y1 := hy1
        simp only [List.map_cons, zipForward, hl, callAct, ← act_eval ha ρ]
        exact ih h ρ

/-- **C38.** Whatever the architecture, the activations and the weights: if the controller can be translated, the expressions evaluate,
at every state, to the output of the numeric controller with its weights rounded to five decimals. -/
theorem C38_symbolic_is_rounded_numeric (lib : Lib) (c : Controller) (x u : List Term) (h : c.toSymbolic lib x = .ok u) (ρ : Env) :
    (rounded5 c).forward (x.map (Term.eval ρ)) = .ok (u.map (Term.eval ρ)) := by
  unfold Controller.toSymbolic at h
  split at h
  · cases h
  rename_i y hy
  split at h
  · cases h
  rename_i w hw
  simp only [Controller.forward, rounded5, zipSym_eval hy ρ, List.getLast?_map, hw, Option.map_some]
  exact matVec_linear h ρ

theorem rounded5_of_grid {c : Controller} (h : OnGrid5 c) : rounded5 c = c := by
  have : c.layers.map (fun w => w.map (fun r => r.map (roundBy 5))) = c.layers := by
    conv_rhs => rw [← List.map_id c.layers]
    refine List.map_congr_left fun w hw => ?_
    conv_rhs => rw [id, ← List.map_id w]
    refine List.map_congr_left fun r hr => ?_
    conv_rhs => rw [id, ← List.map_id r]
    refine List.map_congr_left fun q hq => ?_
    obtain ⟨m, rfl⟩ := h w hw r hr q hq
    have := (C17_rounding 5 ((m:ℚ) / 10 ^ 5)).2 5 rfl
    simp only [id]
    rw [roundBy, if_neg (by norm_num), npRound]
    simp only [show Int.toNat 5 = 5 from rfl]
    rw [div_mul_cancel₀ _ (by positivity)]
    congr 2
    unfold roundHalfEven
    simp
  unfold rounded5
  rw [this]

/-- **C38.** If all weights have at most five decimals the symbolic controller is the returned controller itself. -/
theorem C38_exact_on_five_decimals (lib : Lib) (c : Controller) (hg : OnGrid5 c) (x u : List Term)
    (h : c.toSymbolic lib x = .ok u) (ρ : Env) : c.forward (x.map (Term.eval ρ)) = .ok (u.map (Term.eval ρ)) := by
  have := C38_symbolic_is_rounded_numeric lib c x u h ρ
  rwa [rounded5_of_grid hg] at this

/-! ### architecture -/

theorem initMat_shape (w : ℕ → ℕ → ℕ → ℚ) (k rows cols : ℕ) : HasShape (initMat w k rows cols) rows cols := by
  constructor
  · simp [initMat]
  · intro r hr
    simp only [initMat, List.mem_map] at hr
    obtain ⟨i, _, rfl⟩ := hr
    simp

/-- widths of consecutive layers fit together -/
def ShapeChain : ℕ → List Mat → ℕ → Prop
  | n, [], m => n = m
  | n, w :: ws, m => ∃ k, HasShape w k n ∧ ShapeChain k ws m

theorem hiddenMats_chain (w : ℕ → ℕ → ℕ → ℚ) (ms : List ℕ) : ∀ k n, ShapeChain n (hiddenMats w k n ms).1 (hiddenMats w k n ms).2 ∧
    (hiddenMats w k n ms).1.length = ms.length := by
  induction ms with
  | nil => intro k n; simp [hiddenMats, ShapeChain]
  | cons m ms ih =>
    intro k n
    obtain ⟨a, b⟩ := ih (k + 1) m
    exact ⟨⟨m, initMat_shape w k m n, a⟩, by simp [hiddenMats, b]⟩

theorem linear_ok {w : Mat} {y : List ℝ} {rows cols : ℕ} (h : HasShape w rows cols) (hy : y.length = cols) :
    linear w y = .ok (w.map (dotR · y)) := by
  rw [linear, if_pos]
  rw [List.all_eq_true]
  intro r hr
  simp [h.2 r hr, hy]

theorem act_forward_length (a : Act) (z : List ℝ) : (a.forward z).length = z.length := by
  rw [Act.forward_eq]; simp

theorem zipForward_chain : ∀ (as : List Act) (ws : List Mat) (rest : List Mat) (y : List ℝ) (n m : ℕ), ShapeChain n ws m →
    as.length = ws.length → y.length = n →
    ∃ y', zipForward (as.map some) (ws ++ rest) y = .ok y' ∧ y'.length = m ∧
      ∀ out, feedForward (ws.zip as) out y = out.map (dotR · y') := by
  intro as
  induction as with
  | nil =>
    intro ws rest y n m hc hl hy
    have : ws = [] := by cases ws <;> simp_all
    subst this
    simp only [ShapeChain] at hc
    exact ⟨y, by simp [zipForward], by omega, fun out => by simp [feedForward]⟩
  | cons a as ih =>
    intro ws rest y n m hc hl hy
    cases ws with
    | nil => simp at hl
    | cons w ws =>
      obtain ⟨k, hs, hc⟩ := hc
      obtain ⟨y', h1, h2, h3⟩ := ih ws rest (a.forward (w.map (dotR · y))) k m hc (by simpa using hl)
        (by rw [act_forward_length, List.length_map, hs.1])
      refine ⟨y', ?_, h2, fun out => ?_⟩
      · simp only [List.map_cons, List.cons_append, zipForward, linear_ok hs hy, callAct]
        exact h1
      · simp only [List.zip_cons_cons, feedForward]
        exact h3 out

/-- **C38, architecture.** A controller configured with at least one hidden layer and exactly one (supported) activation per hidden
layer has hidden layers of the requested widths and an output of the requested size; it never raises on states of the right
size and computes the ordinary feed-forward network of its matrices. -/
theorem C38_controller_is_network (w : ℕ → ℕ → ℕ → ℚ) (nVars : ℕ) (hidden : List ℕ) (out : ℕ) (acts : List Act)
    (ats : List ActivationType) (hats : ats.map activationFcn = acts.map some) (hlen : ats.length = hidden.length)
    (hne : hidden ≠ []) :
    ∃ (hid : List Mat) (o : Mat), controllerOf w nVars (hidden ++ [out]) ats = .ok (some ⟨hid ++ [o], acts.map some⟩) ∧
      hid.map List.length = hidden ∧ o.length = out ∧
      ∀ x : List ℝ, x.length = nVars →
        (Controller.mk (hid ++ [o]) (acts.map some)).forward x = .ok (feedForward (hid.zip acts) o x) ∧
        (feedForward (hid.zip acts) o x).length = out := by
  obtain ⟨hc, hcl⟩ := hiddenMats_chain w hidden 0 nVars
  have hla : acts.length = hidden.length := by
    have := congrArg List.length hats
    simp only [List.length_map] at this
    omega
  have hsh := initMat_shape w hidden.length out (hiddenMats w 0 nVars hidden).2
  refine ⟨(hiddenMats w 0 nVars hidden).1, initMat w hidden.length out (hiddenMats w 0 nVars hidden).2, ?_, ?_, hsh.1, ?_⟩
  · unfold controllerOf
    simp only [List.getLast?_append, List.getLast?_singleton, Option.some_or, List.dropLast_concat, newController]
    cases hidden with
    | nil => exact absurd rfl hne
    | cons m ms => simp only [hats]
  · have : ∀ k n, (hiddenMats w k n hidden).1.map List.length = hidden := by
      clear hc hcl hla hsh hlen hne
      induction hidden with
      | nil => intro k n; rfl
      | cons m ms ih => intro k n; simp [hiddenMats, ih, initMat]
    exact this 0 nVars
  · intro x hx
    obtain ⟨y', h1, h2, h3⟩ := zipForward_chain acts _ [initMat w hidden.length out (hiddenMats w 0 nVars hidden).2] x nVars _ hc
      (by rw [hcl]; exact hla) hx
    simp only [Controller.forward, h1, List.getLast?_append, List.getLast?_singleton, Option.some_or]
    rw [h3, linear_ok hsh h2]
    simp [hsh.1]

/-- a controller with two hidden layers for a two-dimensional system -/
example : ([ActivationType.TANH, .LINEAR].map activationFcn = [Act.tanh, .identity].map some) ∧
    [ActivationType.TANH, .LINEAR].length = [4, 3].length ∧ ([4, 3] : List ℕ) ≠ [] := by simp [activationFcn]

/-- **C38, no hidden layer.** A linear state-feedback controller (`CTRLAYER = [m]`) cannot be configured: the constructor raises. -/
theorem C38_linear_controller_raises (w : ℕ → ℕ → ℕ → ℚ) (nVars m : ℕ) (ats : List ActivationType) :
    controllerOf w nVars [m] ats = .error .nameError := by
  simp [controllerOf, newController]

/-- **C38, one activation too many.** With one activation per layer *including* the output layer the output matrix is applied twice
(with the last activation in between), or the controller raises because the widths do not fit. -/
theorem C38_extra_activation_applies_output_twice (hid : List Mat) (o : Mat) (acts : List Act) (a : Act) (x : List ℝ) (n m k : ℕ)
    (hc : ShapeChain n hid m) (ho : HasShape o k m) (hk : 0 < k) (hlen : acts.length = hid.length) (hx : x.length = n) :
    (Controller.mk (hid ++ [o]) ((acts ++ [a]).map some)).forward x =
      if k = m then .ok (o.map (dotR · (a.forward (feedForward (hid.zip acts) o x)))) else .error .runtimeError := by
  have hz : ∀ (as : List Act) (ws : List Mat) (y : List ℝ) (n : ℕ), ShapeChain n ws m → as.length = ws.length → y.length = n →
      zipForward ((as ++ [a]).map some) (ws ++ [o]) y = .ok (a.forward (feedForward (ws.zip as) o y)) := by
    intro as
    induction as with
    | nil =>
      intro ws y n hc hl hy
      have : ws = [] := by cases ws <;> simp_all
      subst this
      simp only [ShapeChain] at hc
      simp [zipForward, linear_ok ho (hy.trans hc), callAct, feedForward]
    | cons b bs ih =>
      intro ws y n hc hl hy
      cases ws with
      | nil => simp at hl
      | cons w ws =>
        obtain ⟨j, hs, hc⟩ := hc
        simp only [List.cons_append, List.map_cons, zipForward, linear_ok hs hy, callAct, List.zip_cons_cons, feedForward]
        exact ih ws _ j hc (by simpa using hl) (by rw [act_forward_length, List.length_map, hs.1])
  simp only [Controller.forward, hz acts hid x n hc hlen hx, List.getLast?_append, List.getLast?_singleton, Option.some_or]
  obtain ⟨y', -, -, h3⟩ := zipForward_chain acts hid [] x n m hc hlen hx
  have hlen' : (a.forward (feedForward (hid.zip acts) o x)).length = k := by
    rw [act_forward_length, h3, List.length_map, ho.1]
  split_ifs with hkm
  · exact linear_ok (rows := k) (cols := m) ho (hlen'.trans hkm)
  · rw [linear, if_neg]
    obtain ⟨hl, hr⟩ := ho
    obtain ⟨r, rs, rfl⟩ : ∃ r rs, o = r :: rs := by cases o <;> simp_all
    simp [hr r (by simp), hlen']
    intro h
    exact absurd h.symm hkm

/-- **C38, too few activations.** With fewer activations than hidden layers the layers in the middle are silently skipped: the output
does not depend on their weights. -/
theorem C38_missing_activation_skips_layers (pre mid mid' : List Mat) (o : Mat) (acts : List (Option Act)) (hlen : acts.length = pre.length)
    (x : List ℝ) : (Controller.mk (pre ++ mid ++ [o]) acts).forward x = (Controller.mk (pre ++ mid' ++ [o]) acts).forward x := by
  have hz : ∀ (as : List (Option Act)) (ws rest rest' : List Mat) (y : List ℝ), as.length = ws.length →
      zipForward as (ws ++ rest) y = zipForward as (ws ++ rest') y := by
    intro as
    induction as with
    | nil =>
      intro ws rest rest' y hl
      simp [zipForward]
    | cons b bs ih =>
      intro ws rest rest' y hl
      cases ws with
      | nil => simp at hl
      | cons w ws =>
        simp only [List.cons_append, zipForward]
        split
        · rfl
        · split
          · rfl
          · exact ih ws rest rest' _ (by simpa using hl)
  simp only [Controller.forward, List.append_assoc, hz acts pre (mid ++ [o]) (mid' ++ [o]) x hlen]
  simp

/-! ### closed loop -/

/-- **C38, closed loop.** The dynamics given to the solver are, at every state, the open-loop dynamics driven by the controller with
weights rounded to five decimals (for every open-loop model whose symbolic and numeric versions agree). -/
theorem C38_closed_loop_is_rounded (lib : Lib) (o : OpenLoop) (c : Controller) (v f : List Term) (ha : Agree o v)
    (h : closedSmt lib o c v = .ok f) (ρ : Env) :
    closedTorch o (rounded5 c) (v.map (Term.eval ρ)) = .ok (f.map (Term.eval ρ)) := by
  unfold closedSmt at h
  split at h
  · cases h
  rename_i u hu
  simp only [closedTorch, C38_symbolic_is_rounded_numeric lib c v u hu ρ]
  exact ha u f ρ h

theorem vars_coordList {n : ℕ} (p : Pt n) : (vars n).map (Term.eval p.env) = coordList p := by
  apply List.ext_getElem
  · simp [vars, coordList]
  · intro i h1 h2
    have hi : i < n := by simpa [vars] using h1
    simp [vars, coordList, Term.eval, Pt.env, hi]

/-- The vector field of the verified closed loop. -/
theorem C38_field (lib : Lib) (o : OpenLoop) (c : Controller) (n : ℕ) (f : List Term) (ha : Agree o (vars n))
    (h : closedSmt lib o c (vars n) = .ok f) : field n f = listField n (closedTorch o (rounded5 c)) := by
  funext p i
  have := C38_closed_loop_is_rounded lib o c _ f ha h p.env
  rw [vars_coordList] at this
  simp only [field, listField, this]
  by_cases hi : (i : ℕ) < f.length
  · simp [List.getD, List.getElem?_eq_getElem hi]
  · simp [List.getD, List.getElem?_eq_none (not_lt.1 hi), Term.eval]

/-! ### parsed open-loop systems -/

theorem FName.toFn?_eval {g : FName} {k : Fn} (h : g.toFn? = some k) (t : ℝ) : k.eval t = g.eval t := by
  cases g <;> simp [FName.toFn?] at h <;> subst h <;> rfl

theorem AExpr.toTerm?_eval {σ : ℕ → Option Term} {μ : ℕ → ℝ} {ρ : Env} :
    ∀ {e : AExpr} {t : Term}, (∀ i ∈ e.us, ∀ s, σ i = some s → s.eval ρ = μ i) → e.toTerm? σ = some t → t.eval ρ = e.eval ρ μ := by
  intro e
  induction e with
  | num q => intro t hσ h; simp [AExpr.toTerm?] at h; subst h; rfl
  | x i => intro t hσ h; simp [AExpr.toTerm?] at h; subst h; rfl
  | u i => intro t hσ h; exact hσ i (by simp [AExpr.us]) t h
  | add a b iha ihb | sub a b iha ihb | mul a b iha ihb | div a b iha ihb =>
    intro t hσ h
    simp only [AExpr.toTerm?, Option.bind_eq_bind, Option.bind_eq_some_iff, Option.pure_def, Option.some.injEq] at h
    obtain ⟨s, hs, s', hs', rfl⟩ := h
    simp only [AExpr.us, List.mem_append] at hσ
    simp only [Term.eval, AExpr.eval, iha (fun i hi => hσ i (Or.inl hi)) hs, ihb (fun i hi => hσ i (Or.inr hi)) hs']
  | pow a b iha ihb =>
    intro t hσ h
    cases b with
    | num q =>
      simp only [AExpr.toTerm?] at h
      split_ifs at h with hq
      simp only [Option.bind_eq_bind, Option.bind_eq_some_iff, Option.pure_def, Option.some.injEq] at h
      obtain ⟨s, hs, rfl⟩ := h
      simp only [AExpr.us, List.mem_append] at hσ
      simp only [Term.eval, AExpr.eval, iha (fun i hi => hσ i (Or.inl hi)) hs]
      have : (q : ℝ) = ((q.num : ℤ) : ℝ) := by
        have := Rat.coe_int_num_of_den_eq_one hq
        exact_mod_cast congrArg (fun z : ℚ => (z : ℝ)) this.symm
      rw [this, Real.rpow_intCast]
    | _ => simp [AExpr.toTerm?] at h
  | neg a ih =>
    intro t hσ h
    simp only [AExpr.toTerm?, Option.bind_eq_bind, Option.bind_eq_some_iff, Option.pure_def, Option.some.injEq] at h
    obtain ⟨s, hs, rfl⟩ := h
    simp only [Term.eval, AExpr.eval, ih hσ hs]
  | app g a ih =>
    intro t hσ h
    simp only [AExpr.toTerm?, Option.bind_eq_bind, Option.bind_eq_some_iff, Option.pure_def, Option.some.injEq] at h
    obtain ⟨k, hk, s, hs, rfl⟩ := h
    simp only [Term.eval, AExpr.eval, ih hσ hs, FName.toFn?_eval hk]

theorem mapM_toTerm? {σ : ℕ → Option Term} {μ : ℕ → ℝ} {ρ : Env} : ∀ {sys : List AExpr} {fs : List Term},
    (∀ e ∈ sys, ∀ i ∈ e.us, ∀ s, σ i = some s → s.eval ρ = μ i) → sys.mapM (AExpr.toTerm? σ) = some fs →
    fs.map (Term.eval ρ) = sys.map (AExpr.eval ρ μ) := by
  intro sys
  induction sys with
  | nil => intro fs _ h; simp at h; subst h; rfl
  | cons e sys ih =>
    intro fs hσ h
    simp only [List.mapM_cons, Option.bind_eq_bind, Option.bind_eq_some_iff, Option.pure_def, Option.some.injEq] at h
    obtain ⟨t, ht, ts, hts, rfl⟩ := h
    simp only [List.map_cons]
    rw [AExpr.toTerm?_eval (hσ e (by simp)) ht, ih (fun e' he' => hσ e' (by simp [he'])) hts]

/-- **C38, parsed systems.** A system parsed from strings that mentions all its state variables (at most ten of them), has no constant right-hand side and whose
controller has exactly one output per input satisfies the agreement needed above. -/
theorem C38_parsed_closed_loop (lib : Lib) (sys : List AExpr) (n : ℕ) (hm : Mentions sys n) (hn : n ≤ 10) (hc : NoConstants sys) (c : Controller)
    (f : List Term) (h : closedSmt lib (parsedOpen sys n) c (vars n) = .ok f)
    (hu : ∀ w, c.layers.getLast? = some w → w.length = (inputArgs sys).length) (p : Pt n) :
    closedTorch (parsedOpen sys n) (rounded5 c) (coordList p) = .ok (f.map (Term.eval p.env)) := by
  unfold closedSmt at h
  split at h
  · cases h
  rename_i u hus
  have hfw := C38_symbolic_is_rounded_numeric lib c _ u hus p.env
  rw [vars_coordList] at hfw
  have hul : u.length = (inputArgs sys).length := by
    unfold Controller.toSymbolic at hus
    split at hus
    · cases hus
    split at hus
    · cases hus
    rename_i w hw
    obtain ⟨_, rfl⟩ := matVec_ok hus
    simp [round5, hu w hw]
  simp only [closedTorch, hfw, parsedOpen]
  simp only [parsedOpen] at h
  split_ifs at h with h1 h2
  split at h
  · rename_i fs hfs
    cases h
    have hargs : stateArgs sys = List.range n := sortByName_small hm.perm hn
    have hlen : (coordList p).length = n := by simp [coordList]
    simp only [parsedTorchU, (numericOk_iff sys).2 hc, Bind.bind, Except.bind, hargs, List.length_range, hlen, List.length_map, hul, and_self, if_true]
    congr 1
    rw [mapM_toTerm? (μ := bindArgs (inputArgs sys) (u.map (Term.eval p.env))) (ρ := p.env) ?_ hfs]
    · refine List.map_congr_left fun e he => ?_
      refine AExpr.eval_congr (fun i hi => ?_) (fun i hi => rfl)
      have hi' : i < n := (hm i).1 (List.mem_flatMap.2 ⟨e, he, hi⟩)
      simp [bindArgs, idxOf_range hi', coordList, Pt.env, hi']
    · intro e he i hi s hs
      obtain ⟨hlt, rfl⟩ := List.getElem?_eq_some_iff.1 hs
      simp [bindArgs, List.getD, List.getElem?_eq_getElem hlt]
  · cases h

/-! ### what synthesis guarantees for a controlled system -/

/-- **C38, end to end.** If synthesis of a controller with a Barrier or BarrierAlt certificate succeeds (continuous time), no
trajectory of the open loop driven by the *rounded* returned controller that starts in XI and stays in XD reaches XU; with
weights of at most five decimals, this holds for the returned controller. -/
theorem C38_controlled_barrier_synthesis {R : Type} (c : SynthCfg) (w : World R Controller (Net × ℚ)) (hw : SoundWorld c w) (learn)
    (hr : SmoothRun c learn) (hc : c.cert = .BARRIER ∨ c.cert = .BARRIERALT) (o : OpenLoop) (ha : Agree o (vars c.nVars))
    (net ctrl S out) (h : Solves c.loop (singleComponents w c false learn) net ctrl S out) (hf : out.found = true)
    (hdyn : closedSmt c.lib o out.ctrl (vars c.nVars) = .ok (w.dynamics out.ctrl)) :
    (∀ (T : ℝ) (ξ : ℝ → Pt c.nVars), Trajectory (listField c.nVars (closedTorch o (rounded5 out.ctrl))) T ξ →
      ξ 0 ∈ region c.nVars c.domains XI → (∀ t ∈ Icc 0 T, ξ t ∈ region c.nVars c.domains XD) →
      ∀ t ∈ Icc 0 T, ξ t ∉ region c.nVars c.domains XU) ∧
    (OnGrid5 out.ctrl → ∀ (T : ℝ) (ξ : ℝ → Pt c.nVars), Trajectory (listField c.nVars (closedTorch o out.ctrl)) T ξ →
      ξ 0 ∈ region c.nVars c.domains XI → (∀ t ∈ Icc 0 T, ξ t ∈ region c.nVars c.domains XD) →
      ∀ t ∈ Icc 0 T, ξ t ∉ region c.nVars c.domains XU) := by
  have key := C46_barrier_synthesis_safe c w hw learn hr hc net ctrl S out h hf
  rw [C38_field c.lib o out.ctrl c.nVars _ ha hdyn] at key
  refine ⟨key, fun hg => ?_⟩
  rw [rounded5_of_grid hg] at key
  exact key

/-- The open loop `x' = 300000 u - x`. -/
noncomputable def exOpen : OpenLoop := ⟨fun v u =>
    match v, u with
    | [x], [u] => .ok [.sub (.mul (.const 300000) u) x]
    | _, _ => .error .valueError,
  fun v u =>
    match v, u with
    | [x], [u] => .ok [300000 * u - x]
    | _, _ => .error .valueError⟩

theorem exOpen_agree : Agree exOpen (vars 1) := by
  intro u f ρ h
  cases u with
  | nil => cases h
  | cons a u =>
    cases u with
    | nil => cases h; simp [exOpen, vars, Term.eval]
    | cons _ _ => cases h

/-- The controller `u = 0.000004 x` (one hidden neuron, identity). -/
def exCtrl : Controller := ⟨[[[1]], [[4/1000000]]], [some .identity]⟩

/-- What the solver sees of it. -/
def exCtrlDyn : List Term := [.sub (.mul (.const 300000)
  (Term.sum [.mul (.const 0) (Term.sum [.mul (.const 1) (.var 0)])])) (.var 0)]

theorem exCtrl_closed : closedSmt .z3 exOpen exCtrl (vars 1) = .ok exCtrlDyn := by
  have h1 : npRound 5 1 = 1 := by decide +kernel
  have h0 : npRound 5 (4/1000000) = 0 := by decide +kernel
  simp [closedSmt, exCtrl, Controller.toSymbolic, zipSym, matVec, round5, vars, symAct, Act.forwardSym, h1, h0, exOpen, exCtrlDyn]

/-- The verification step for it: `V = x²` on `[-1, 1]`. -/
def exCtrlSetup : Setup := ⟨.z3, 1, .LYAPUNOV, [(XD, .rectangle [-1] [1] none)], false, 3, false,
  ⟨1, [⟨[[1]], none⟩, ⟨[[1]], none⟩], [.square]⟩, exCtrlDyn, 0⟩

theorem exCtrl_accepted : ∃ groups, queriesCT exCtrlSetup = .ok groups ∧ Accepted 1 groups := by
  have hr1 : roundBy 3 1 = 1 := by decide +kernel
  refine ⟨_, rfl, accepted_of_refuted (by simp [DistinctLabels, queries]) ?_⟩
  intro g hg q hq ρ h
  simp only [List.mem_singleton] at hg
  subst hg
  simp only [List.mem_singleton] at hq
  subst hq
  simp [Formula.holds, Formula.conj, Term.eval, Term.sum, leZero, geZero, factors, vars, hr1, exCtrlSetup, exCtrlDyn, eyeJac, postVal,
    postGrad, gradTerms, hiddenBias, diagJac] at h
  have h2 := mul_self_pos.2 h.2.2
  rcases h.2.1 with h3 | h3
  · norm_cast at h3; nlinarith
  · norm_num at h3; nlinarith

theorem exCtrl_trajectory : Trajectory (listField 1 (closedTorch exOpen exCtrl)) 1 (fun t _ => Real.exp (t / 5) / 2) := by
  intro t _
  refine hasDerivWithinAt_pi.2 fun i => ?_
  have h1 : HasDerivAt (fun t : ℝ => Real.exp (t / 5) / 2) (Real.exp (t / 5) * (1 / 5) / 2) t :=
    (((hasDerivAt_id t).div_const 5).exp).div_const 2
  refine HasDerivWithinAt.congr_deriv h1.hasDerivWithinAt ?_
  have hi : i = 0 := Subsingleton.elim _ _
  subst hi
  simp [listField, closedTorch, exCtrl, Controller.forward, zipForward, linear, callAct, Act.forward, coordList, dotR, exOpen]
  ring

theorem exCtrl_inside (t : ℝ) (ht : t ∈ Icc (0:ℝ) 1) :
    ((fun _ => Real.exp (t / 5) / 2 : Pt 1) ∈ region 1 exCtrlSetup.domains XD) ∧ (fun _ => Real.exp (t / 5) / 2 : Pt 1) ≠ 0 := by
  have hp := Real.exp_pos (t / 5)
  have hle : Real.exp (t / 5) ≤ 2 := by
    have : Real.exp (t / 5) ≤ Real.exp (1 / 2) := Real.exp_le_exp.2 (by linarith [ht.2])
    have h3 : Real.exp (1 / 2) ^ 2 = Real.exp 1 := by rw [← Real.exp_nat_mul]; norm_num
    have h4 := Real.exp_one_lt_d9
    nlinarith [Real.exp_pos (1/2 : ℝ)]
  refine ⟨?_, fun h => ?_⟩
  · simp [region, exCtrlSetup, docSet, reals, coords, XD, Dict.get?]
    constructor <;> linarith
  · have := congrFun h 0
    simp at this

theorem exCtrl_increases :
    StrictMonoOn (fun t => certValue 3 false exCtrlSetup.net (fun _ => Real.exp (t / 5) / 2 : Pt 1)) (Icc (0:ℝ) 1) := by
  have hr1 : roundBy 3 1 = 1 := by decide +kernel
  intro a ha b hb hab
  have h1 : Real.exp (a / 5) < Real.exp (b / 5) := Real.exp_lt_exp.2 (by linarith)
  have h0 := Real.exp_pos (a / 5)
  simp [certValue, roundedNet, Net.forward, hiddenForward, Layer.apply, roundedHidden, roundedLast, exCtrlSetup, hr1, at?, coordList,
    dotR, Act.forward, bind, Except.bind]
  exact pow_lt_pow_left₀ (by linarith) (by positivity) (by norm_num)

/-- **C38, the defect.** Verified and returned controller can differ in what matters: there is a controlled system, a returned controller
and a Lyapunov certificate such that every query for the dynamics given to the solver is refuted, while along a trajectory of
the system with the *returned* controller, inside the domain and away from the origin, the certificate strictly increases. -/
theorem C38_returned_controller_not_the_verified_one :
    ∃ (o : OpenLoop) (c : Controller) (s : Setup) (groups : List (Dict String Formula)),
      Agree o (vars s.nVars) ∧ closedSmt s.lib o c (vars s.nVars) = .ok s.f ∧ SmoothSetup s ∧ s.cert = .LYAPUNOV ∧
      queriesCT s = .ok groups ∧ Accepted s.nVars groups ∧
      ∃ ξ : ℝ → Pt s.nVars, Trajectory (listField s.nVars (closedTorch o c)) 1 ξ ∧
        (∀ t ∈ Icc (0:ℝ) 1, ξ t ∈ region s.nVars s.domains XD ∧ ξ t ≠ 0) ∧
        StrictMonoOn (fun t => certValue s.rounding s.quad s.net (ξ t)) (Icc 0 1) := by
  obtain ⟨groups, hq, ha⟩ := exCtrl_accepted
  exact ⟨exOpen, exCtrl, exCtrlSetup, groups, exOpen_agree, exCtrl_closed, ⟨Or.inl rfl, exLyap_smooth.sets, rfl, exLyap_smooth.smooth⟩,
    rfl, hq, ha, fun t _ => Real.exp (t / 5) / 2, exCtrl_trajectory, exCtrl_inside, exCtrl_increases⟩

/-- The hypotheses of the closed-loop theorems are met: parsed system `2 u0 - x0`, controller `u = x² / 2`. -/
example : (∃ f, closedSmt .z3 (parsedOpen [.sub (.mul (.num 2) (.u 0)) (.x 0)] 1) ⟨[[[1]], [[1/2]]], [some .square]⟩ (vars 1) = .ok f) ∧
    Mentions [.sub (.mul (.num 2) (.u 0)) (.x 0)] 1 ∧ NoConstants [.sub (.mul (.num 2) (.u 0)) (.x 0)] ∧ OnGrid5 ⟨[[[1]], [[1/2]]], [some .square]⟩ := by
  have hs : inputArgs [.sub (.mul (.num 2) (.u 0)) (.x 0)] = [0] := by
    have := sortByName_small (l := [0]) (n := 1) (by simp [List.range_succ]) (by norm_num)
    simpa [inputArgs, AExpr.us, List.range_succ] using this
  refine ⟨?_, ?_, by simp [NoConstants, AExpr.xs], ?_⟩
  · simp [closedSmt, Controller.toSymbolic, zipSym, matVec, round5, vars, symAct, Act.forwardSym, parsedOpen, hs, AExpr.xs,
      AExpr.toTerm?]
  · intro i; simp [AExpr.xs]
  · intro w hw r hr q hq
    simp only [List.mem_cons, List.not_mem_nil, or_false] at hw
    rcases hw with rfl | rfl <;> simp at hr <;> subst hr <;> simp at hq <;> subst hq
    · exact ⟨100000, by norm_num⟩
    · exact ⟨50000, by norm_num⟩

end Fossil

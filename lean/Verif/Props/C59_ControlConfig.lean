/- C59: from the text of a configuration file that asks for a controller to the guarantee for the controlled system. -/
import Verif.Lemmas.Config
import Verif.ControlConfig
import Verif.Props.C56_Config

namespace Fossil

open Spec Set
open scoped Topology

namespace Spec

/-- The input that a control network gives in state `p`. -/
noncomputable def controlValue {n : ℕ} (m : ℕ) (k : Controller) (p : Pt n) : Pt m := fun i =>
  match k.forward (coordList p) with
  | .ok u => u.getD i 0
  | .error _ => 0

/-- The controlled system `F` driven by the network `k`. -/
noncomputable def driven {n m : ℕ} (F : Pt n → Pt m → Pt n) (k : Controller) : Pt n → Pt n := fun p => F p (controlValue m k p)

end Spec

/-! ### a control network is a continuous function of the state -/

theorem linear_cont {X : Type _} [TopologicalSpace X] (M : Mat) {u : X → List ℝ} (hu : ContList u) :
    (∃ e, ∀ x, linear M (u x) = .error e) ∨ ∃ v : X → List ℝ, ContList v ∧ ∀ x, linear M (u x) = .ok (v x) := by
  obtain ⟨m, hm, -⟩ := id hu
  by_cases h : M.all (fun r => r.length == m) = true
  · refine Or.inr ⟨fun x => M.map (dotR · (u x)), ⟨M.length, by simp, fun i => ?_⟩, fun x => ?_⟩
    · by_cases hi : i < M.length
      · simpa [List.getD_eq_getElem?_getD, hi] using hu.dot M[i]
      · simp only [List.getD_eq_getElem?_getD, List.getElem?_map, List.getElem?_eq_none (not_lt.1 hi)]
        exact continuous_const
    · rw [linear, hm, if_pos h]
  · exact Or.inl ⟨.runtimeError, fun x => by rw [linear, hm, if_neg h]⟩

theorem zipForward_cont {X : Type _} [TopologicalSpace X] (as : List (Option Act)) : ∀ (ls : List Mat) {u : X → List ℝ}, ContList u →
    (∃ e, ∀ x, zipForward as ls (u x) = .error e) ∨ ∃ v : X → List ℝ, ContList v ∧ ∀ x, zipForward as ls (u x) = .ok (v x) := by
  induction as with
  | nil => intro ls u hu; exact Or.inr ⟨u, hu, fun x => by simp [zipForward]⟩
  | cons a as ih =>
    intro ls u hu
    cases ls with
    | nil => exact Or.inr ⟨u, hu, fun x => by simp [zipForward]⟩
    | cons M ls =>
      rcases linear_cont M hu with ⟨e, he⟩ | ⟨v, hv, he⟩
      · exact Or.inl ⟨e, fun x => by simp [zipForward, he]⟩
      · cases a with
        | none => exact Or.inl ⟨.typeError, fun x => by simp [zipForward, he, callAct]⟩
        | some a =>
          rcases ih ls (hv.act a) with ⟨e, h'⟩ | ⟨y, hy, h'⟩
          · exact Or.inl ⟨e, fun x => by simp [zipForward, he, callAct, h']⟩
          · exact Or.inr ⟨y, hy, fun x => by simp [zipForward, he, callAct, h']⟩

theorem controller_cont {X : Type _} [TopologicalSpace X] (k : Controller) {u : X → List ℝ} (hu : ContList u) :
    (∃ e, ∀ x, k.forward (u x) = .error e) ∨ ∃ v : X → List ℝ, ContList v ∧ ∀ x, k.forward (u x) = .ok (v x) := by
  rcases zipForward_cont k.acts k.layers hu with ⟨e, he⟩ | ⟨v, hv, he⟩
  · exact Or.inl ⟨e, fun x => by simp [Controller.forward, he]⟩
  · cases hl : k.layers.getLast? with
    | none => exact Or.inl ⟨.indexError, fun x => by simp [Controller.forward, he, hl]⟩
    | some M =>
      rcases linear_cont M hv with ⟨e, h'⟩ | ⟨y, hy, h'⟩
      · exact Or.inl ⟨e, fun x => by simp [Controller.forward, he, hl, h']⟩
      · exact Or.inr ⟨y, hy, fun x => by simp [Controller.forward, he, hl, h']⟩

/-- Whatever the architecture, activations and weights, the input given by a control network depends continuously on the state. -/
theorem controlValue_continuous (n m : ℕ) (k : Controller) : Continuous (controlValue (n := n) m k) := by
  refine continuous_pi fun i => ?_
  rcases controller_cont k (coordList_cont (n := n)) with ⟨e, he⟩ | ⟨v, ⟨_, -, hv⟩, he⟩
  · simp only [controlValue, he]; exact continuous_const
  · simp only [controlValue, he]; exact hv i

/-- A continuous controlled system stays continuous when driven by a control network. -/
theorem driven_continuous {n m : ℕ} {F : Pt n → Pt m → Pt n} (hF : Continuous (fun z : Pt n × Pt m => F z.1 z.2)) (k : Controller) : Continuous (driven F k) :=
  hF.comp (continuous_id.prodMk (controlValue_continuous n m k))

/-! ### numbered inputs -/

theorem AExpr.numberUs_xs (e : AExpr) : ∀ k, (e.numberUs k).xs = e.xs := by
  induction e with
  | num | x | u => intro k; rfl
  | add a b iha ihb | sub a b iha ihb | mul a b iha ihb | div a b iha ihb | pow a b iha ihb =>
    intro k; simp only [AExpr.numberUs, AExpr.xs, iha, ihb]
  | neg a ih | app f a ih => intro k; simp only [AExpr.numberUs, AExpr.xs, ih]

theorem AExpr.eval_states {ρ ρ' : Env} {μ : ℕ → ℝ} (e : AExpr) : (∀ j ∈ e.xs, ρ j = ρ' j) → e.eval ρ μ = e.eval ρ' μ := by
  induction e with
  | num | u => intro h; rfl
  | x i => intro h; exact h i (by simp [AExpr.xs])
  | add a b iha ihb | sub a b iha ihb | mul a b iha ihb | div a b iha ihb | pow a b iha ihb =>
    intro h
    simp only [AExpr.eval, iha fun j hj => h j (by simp [AExpr.xs, hj]), ihb fun j hj => h j (by simp [AExpr.xs, hj])]
  | neg a ih | app f a ih => intro h; simp only [AExpr.eval, ih fun j hj => h j (by simpa [AExpr.xs] using hj)]

theorem AExpr.numberUs_eval {ρ : Env} {μ μ' : ℕ → ℝ} (e : AExpr) : ∀ k, (∀ j i, e.us[j]? = some i → μ' (k + j) = μ i) →
    (e.numberUs k).eval ρ μ' = e.eval ρ μ := by
  induction e with
  | num | x => intro k h; rfl
  | u i => intro k h; exact h 0 i rfl
  | add a b iha ihb | sub a b iha ihb | mul a b iha ihb | div a b iha ihb | pow a b iha ihb =>
    intro k h
    have ha := iha k fun j i hj => h j i (by
      obtain ⟨hl, rfl⟩ := List.getElem?_eq_some_iff.1 hj
      simp [AExpr.us, List.getElem?_append_left hl])
    have hb := ihb (k + a.us.length) fun j i hj => by
      rw [add_assoc]
      exact h (a.us.length + j) i (by simp [AExpr.us, List.getElem?_append_right, hj])
    simp only [AExpr.numberUs, AExpr.eval, ha, hb]
  | neg a ih | app f a ih => intro k h; simp only [AExpr.numberUs, AExpr.eval, ih k h]

theorem AExpr.numberUs_us (e : AExpr) : ∀ k, (e.numberUs k).us = (List.range e.us.length).map (k + ·) := by
  induction e with
  | num | x => intro k; rfl
  | u i => intro k; simp [AExpr.numberUs, AExpr.us, List.range_succ]
  | add a b iha ihb | sub a b iha ihb | mul a b iha ihb | div a b iha ihb | pow a b iha ihb =>
    intro k
    simp only [AExpr.numberUs, AExpr.us, iha, ihb, List.length_append, List.range_add, List.map_append, List.map_map]
    congr 1
    refine List.map_congr_left fun j _ => by simp [add_assoc]
  | neg a ih | app f a ih => intro k; simp only [AExpr.numberUs, AExpr.us, ih]

theorem numberSys_get {i : ℕ} {e : AExpr} : ∀ (sys : List AExpr) (k : ℕ), sys[i]? = some e →
    (numberSys k sys)[i]? = some (e.numberUs (k + ((sys.take i).flatMap AExpr.us).length)) := by
  induction i with
  | zero =>
    intro sys k h
    cases sys with
    | nil => cases h
    | cons a sys => simp at h; subst h; simp [numberSys]
  | succ i ih =>
    intro sys k h
    cases sys with
    | nil => cases h
    | cons a sys =>
      simp only [List.getElem?_cons_succ] at h
      simp only [numberSys, List.getElem?_cons_succ, ih sys _ h, List.take_succ_cons, List.flatMap_cons, List.length_append, add_assoc]

theorem numberSys_length : ∀ (sys : List AExpr) (k : ℕ), (numberSys k sys).length = sys.length := by
  intro sys
  induction sys with
  | nil => intro k; rfl
  | cons a sys ih => intro k; simp [numberSys, ih]

/-- Occurrence `j` of expression `i` in the list of all occurrences. -/
theorem flatMap_us_get {i j a : ℕ} {e : AExpr} : ∀ (sys : List AExpr), sys[i]? = some e → e.us[j]? = some a →
    (sys.flatMap AExpr.us)[((sys.take i).flatMap AExpr.us).length + j]? = some a := by
  induction i with
  | zero =>
    intro sys h hj
    cases sys with
    | nil => cases h
    | cons b sys =>
      simp at h; subst h
      obtain ⟨hl, rfl⟩ := List.getElem?_eq_some_iff.1 hj
      simp [List.getElem?_append_left hl]
  | succ i ih =>
    intro sys h hj
    cases sys with
    | nil => cases h
    | cons b sys =>
      simp only [List.getElem?_cons_succ] at h
      simp only [List.take_succ_cons, List.flatMap_cons, List.length_append, add_assoc]
      rw [List.getElem?_append_right (by omega), Nat.add_sub_cancel_left]
      exact ih sys h hj

theorem toSymbolic_below {n : ℕ} {lib : Lib} {k : Controller} {x u : List Term} (hx : AllBelow n x) (h : k.toSymbolic lib x = .ok u) : AllBelow n u := by
  have hz : ∀ (as : List (Option Act)) (ws : List Mat) (x y : List Term), AllBelow n x → zipSym lib as ws x = .ok y → AllBelow n y := by
    intro as
    induction as with
    | nil => intro ws x y hx h; cases h; exact hx
    | cons a as ih =>
      intro ws x y hx h
      cases ws with
      | nil => cases h; exact hx
      | cons w ws =>
        simp only [zipSym] at h
        split at h
        · cases h
        rename_i z hz
        split at h
        · cases h
        rename_i y' hy
        refine ih ws y' y ?_ h
        cases a with
        | none => cases hy
        | some a => exact forwardSym_below (matVec_below hx hz) hy
  unfold Controller.toSymbolic at h
  split at h
  · cases h
  rename_i y hy
  split at h
  · cases h
  exact matVec_below (hz _ _ _ _ hx hy) h

/-! ### the closed loop is the written system driven by the rounded controller -/

theorem readControlled_inv {lib : Lib} {texts : List String} {sys : List AExpr} (h : readControlled lib texts = .ok sys) :
    texts.mapM (parseText lib.funcs) = .ok sys := by
  obtain ⟨num, -, h⟩ := except_bind_ok h
  obtain ⟨_, -, h⟩ := except_bind_ok h
  split_ifs at h
  obtain ⟨sys', h1, h⟩ := except_bind_ok h
  split_ifs at h
  cases h
  exact h1

theorem control_field {lib : Lib} {n m : ℕ} {texts : List String} {sys : List AExpr} (h : readControlled lib texts = .ok sys)
    {once : Bool} {F : Pt n → Pt m → Pt n} (hF : ControlText once lib.funcs n m texts F) (hm : m ≤ 10) (hs : lib = .dreal → once = true)
    {k : Controller} {f : List Term} (hk : closedLoop lib sys n k = .ok f) :
    field n f = driven F (rounded5 k) ∧ f.length = n ∧ AllBelow n f := by
  have h1 := readControlled_inv h
  obtain ⟨m1, m2⟩ := mapM_parse _ _ h1
  obtain ⟨hlen, es, he, hcov, hnd⟩ := hF
  -- the parsed expressions
  have key : ∀ i (hi : i < n), ∃ v, sys[i]? = some v ∧ v.xs = (es i).xs ∧ v.us = (es i).us ∧ ∀ ρ μ, v.eval ρ μ = (es i).eval ρ μ := by
    intro i hi
    have hi' : i < texts.length := by rw [hlen]; exact hi
    obtain ⟨v, k1, k2⟩ := m2 i hi'
    obtain ⟨ts, hd, hmp, hsp, -⟩ := he i hi
    rw [List.getD_eq_getElem?_getD, List.getElem?_eq_getElem hi', Option.getD_some] at hsp
    obtain ⟨hev, hxs, hus⟩ := accepted_denotes hsp hd hmp k2
    exact ⟨v, k1, hxs, hus, hev⟩
  have hsl : sys.length = n := by rw [m1, hlen]
  have key' : ∀ v ∈ sys, ∃ i, ∃ hi : i < n, sys[i]? = some v := by
    intro v hv
    obtain ⟨i, hi, rfl⟩ := List.getElem_of_mem hv
    exact ⟨i, by omega, List.getElem?_eq_getElem hi⟩
  have hmem : ∀ j, j ∈ sys.flatMap AExpr.us ↔ j < m := by
    intro j
    rw [List.mem_flatMap]
    constructor
    · rintro ⟨v, hv, hj⟩
      obtain ⟨i, hi, hvi⟩ := key' v hv
      obtain ⟨v', k1, -, k3, -⟩ := key i hi
      rw [hvi] at k1
      cases k1
      exact (he i hi).choose_spec.2.2.2.2.1 j (by rw [← k3]; exact hj)
    · intro hj
      obtain ⟨i, hi, hji⟩ := hcov j hj
      obtain ⟨v, k1, -, k3, -⟩ := key i hi
      exact ⟨v, List.mem_of_getElem? k1, by rw [k3]; exact hji⟩
  have hargs : inputArgs sys = List.range m := by
    refine sortByName_small ?_ hm
    refine (List.perm_ext_iff_of_nodup (List.nodup_dedup _) List.nodup_range).2 fun j => ?_
    rw [List.mem_dedup, hmem, List.mem_range]
  have hxs : ∀ v ∈ sys, ∀ j ∈ v.xs, j < n := by
    intro v hv j hj
    obtain ⟨i, hi, hvi⟩ := key' v hv
    obtain ⟨v', k1, k2, -⟩ := key i hi
    rw [hvi] at k1
    cases k1
    exact (he i hi).choose_spec.2.2.2.1 j (by rw [← k2]; exact hj)
  -- the controller
  unfold closedLoop closedSmt at hk
  split at hk
  · cases hk
  rename_i u hu
  have hub : AllBelow n u := toSymbolic_below (vars_below n) hu
  have hval : ∀ p : Pt n, ∀ j (hj : j < m), ∀ s, u[j]? = some s → s.eval p.env = controlValue m (rounded5 k) p ⟨j, hj⟩ := by
    intro p j hj s hs
    have := C38_symbolic_is_rounded_numeric lib k _ u hu p.env
    rw [vars_coordList] at this
    simp [controlValue, this, List.getD_eq_getElem?_getD, hs]
  have fin : ∀ (L : List AExpr) (σ : ℕ → Option Term), L.length = n → L.mapM (AExpr.toTerm? σ) = some f → (∀ i s, σ i = some s → termBelow n s) →
      (∀ v ∈ L, ∀ j ∈ v.xs, j < n) → (∀ (p : Pt n) i (hi : i < n) t v, L[i]? = some v → v.toTerm? σ = some t →
        t.eval p.env = F p (controlValue m (rounded5 k) p) ⟨i, hi⟩) → field n f = driven F (rounded5 k) ∧ f.length = n ∧ AllBelow n f := by
    intro L σ hL hf hσ hx hv
    obtain ⟨o1, o2, o3⟩ := mapM_term _ _ hf
    refine ⟨?_, by rw [o1, hL], fun t ht => ?_⟩
    · funext p i
      have hi : (i : ℕ) < L.length := by rw [hL]; exact i.2
      obtain ⟨t, k3, k4⟩ := o2 i L[i] (List.getElem?_eq_getElem hi)
      rw [field, List.getD_eq_getElem?_getD, k3]
      exact hv p i i.2 t _ (List.getElem?_eq_getElem hi) k4
    · obtain ⟨v, hv', hvt⟩ := o3 t ht
      exact AExpr.toTerm?_below hσ (hx v hv') hvt
  by_cases hd : lib = .dreal
  · rw [if_pos hd] at hk
    simp only [parsedOpenDreal] at hk
    split_ifs at hk
    split at hk
    · rename_i fs hfs
      cases hk
      have hnd : (sys.flatMap AExpr.us).Nodup := by
        have e : sys.map AExpr.us = (List.range n).map fun i => (es i).us := by
          refine List.ext_getElem (by simp [hsl]) fun i i1 i2 => ?_
          simp only [List.length_map] at i1
          obtain ⟨v, k1, -, k3, -⟩ := key i (by omega)
          rw [List.getElem?_eq_getElem i1, Option.some.injEq] at k1
          simp [k1, k3]
        have := hnd (hs hd)
        rwa [List.flatMap_def, ← e, ← List.flatMap_def] at this
      have hdrop : ∀ (l : List ℕ), l.Nodup → ∀ (k a : ℕ), l[k]? = some a → a ∉ l.drop (k + 1) := by
        intro l
        induction l with
        | nil => intro _ k a h; cases h
        | cons b l ih =>
          intro hl k a hk
          cases k with
          | zero => simp at hk; subst hk; simpa using (List.nodup_cons.1 hl).1
          | succ k => simpa using ih (List.nodup_cons.1 hl).2 k a (by simpa using hk)
      have hin : ∀ j a, (sys.flatMap AExpr.us)[j]? = some a → drealInput sys n u j = u[a]? := by
        intro j a hj
        have ha : a < m := (hmem a).1 (List.mem_of_getElem? hj)
        simp only [drealInput, hj]
        rw [if_neg (hdrop _ hnd j a hj), hargs, idxOf_range ha]
      refine fin _ _ (by rw [numberSys_length, hsl]) hfs ?_ ?_ ?_
      · intro j s hj
        cases hocc : (sys.flatMap AExpr.us)[j]? with
        | none => simp [drealInput, hocc] at hj
        | some a =>
          rw [hin j a hocc] at hj
          exact hub s (List.mem_of_getElem? hj)
      · intro v hv j hj
        obtain ⟨i, hi, rfl⟩ := List.getElem_of_mem hv
        have hi' : i < sys.length := by rwa [numberSys_length] at hi
        have := numberSys_get sys 0 (List.getElem?_eq_getElem hi')
        rw [List.getElem?_eq_getElem hi, Option.some.injEq] at this
        rw [this, AExpr.numberUs_xs] at hj
        exact hxs _ (List.getElem_mem hi') j hj
      · intro p i hi t v' hv' ht
        obtain ⟨v, k1, k2, k3, k4⟩ := key i hi
        rw [numberSys_get sys 0 k1] at hv'
        cases hv'
        have := AExpr.toTerm?_eval (μ := fun j => (controlValue m (rounded5 k) p).env (((sys.flatMap AExpr.us)[j]?).getD 0)) (ρ := p.env) ?_ ht
        · rw [this, AExpr.numberUs_eval (μ := (controlValue m (rounded5 k) p).env) v _ ?_, k4, (he i hi).choose_spec.2.2.2.2.2 p]
          intro j a hj
          rw [zero_add, flatMap_us_get sys k1 hj]
          rfl
        · intro j hj s hs'
          rw [AExpr.numberUs_us, List.mem_map] at hj
          obtain ⟨j', hj', rfl⟩ := hj
          have hj'' : j' < v.us.length := List.mem_range.1 hj'
          have hg := flatMap_us_get sys k1 (List.getElem?_eq_getElem hj'')
          rw [zero_add] at hs' ⊢
          rw [hin _ _ hg] at hs'
          have hlt : v.us[j'] < m := (hmem _).1 (List.mem_of_getElem? hg)
          rw [hval p _ hlt s hs', hg]
          simp [Pt.env, hlt]
    · cases hk
  · rw [if_neg hd] at hk
    simp only [parsedOpen] at hk
    split_ifs at hk
    split at hk
    · rename_i fs hfs
      cases hk
      have hin : ∀ j s, u[(inputArgs sys).idxOf j]? = some s → s ∈ u := fun j s hj => List.mem_of_getElem? hj
      refine fin _ _ hsl hfs (fun i s hi => hub s (hin i s hi)) hxs ?_
      intro p i hi t v' hv' ht
      obtain ⟨v, k1, k2, k3, k4⟩ := key i hi
      rw [k1] at hv'
      cases hv'
      rw [AExpr.toTerm?_eval (μ := (controlValue m (rounded5 k) p).env) (ρ := p.env) ?_ ht, k4, (he i hi).choose_spec.2.2.2.2.2 p]
      intro j hj s hs'
      have hlt : j < m := (hmem _).1 (List.mem_flatMap.2 ⟨_, List.mem_of_getElem? k1, hj⟩)
      rw [hargs, idxOf_range hlt] at hs'
      rw [hval p _ hlt s hs']
      simp [Pt.env, hlt]
    · cases hk

/-! ### the guarantees -/

variable {R : Type}

/-- A run from a configuration file that asks for a controller: the texts describe the controlled vector field `F` with at most ten inputs (each written
only once if the verifier is dReal) and sets, the configuration is accepted, the loop runs with the closed loop of the system read from the file and the
controller just trained, a sound solver, and training that keeps the architecture of the certificate. -/
structure ControlRun (c : ControlConfig) (r : ReadyControl) (m : ℕ) (F : Pt c.base.nVars → Pt m → Pt c.base.nVars) (w : World R Controller (Net × ℚ))
    (learn : LoopState (Net × ℚ) Controller (List ℚ) Term → Except Err ((Net × ℚ) × Controller)) : Prop where
  lib : c.base.lib = .z3 ∨ c.base.lib = .dreal
  domains : DomainsDescribed c.base
  system : ControlText (decide (c.base.lib = .dreal)) c.base.lib.funcs c.base.nVars m c.base.system F
  inputs : m ≤ 10
  accepted : ∃ w0, readControl w0 c = .ok r
  sound : SoundWorld r.cfg w
  dynamics : ∀ st n k, learn st = .ok (n, k) → closedLoop c.base.lib r.sys c.base.nVars k = .ok (w.dynamics k)
  arch : ∀ st n k, learn st = .ok (n, k) → n.1.inputSize = c.base.nVars ∧ smoothActs n.1

/-- The same for the certificates with two networks. -/
structure ControlRun2 (c : ControlConfig) (r : ReadyControl) (m : ℕ) (F : Pt c.base.nVars → Pt m → Pt c.base.nVars) (w : World R Controller ((Net × ℚ) × Net))
    (learn : LoopState ((Net × ℚ) × Net) Controller (List ℚ) (Term × Term) → Except Err (((Net × ℚ) × Net) × Controller)) : Prop where
  lib : c.base.lib = .z3 ∨ c.base.lib = .dreal
  domains : DomainsDescribed c.base
  system : ControlText (decide (c.base.lib = .dreal)) c.base.lib.funcs c.base.nVars m c.base.system F
  inputs : m ≤ 10
  accepted : ∃ w0, readControl w0 c = .ok r
  sound : SoundWorld r.cfg w
  dynamics : ∀ st n k, learn st = .ok (n, k) → closedLoop c.base.lib r.sys c.base.nVars k = .ok (w.dynamics k)
  arch : ∀ st n k, learn st = .ok (n, k) → (n.1.1.inputSize = c.base.nVars ∧ smoothActs n.1.1) ∧ (n.2.inputSize = c.base.nVars ∧ smoothActs n.2)

theorem readControl_inv {w0 : ℕ → ℕ → ℕ → ℚ} {c : ControlConfig} {r : ReadyControl} (h : readControl w0 c = .ok r) :
    readControlled c.base.lib c.base.system = .ok r.sys ∧ readSets c.base = .ok (r.cfg, r.data) ∧
      controllerOf w0 c.base.nVars c.ctrlayer c.ctrlacts = .ok (some r.ctrl) ∧ ∃ f, closedLoop c.base.lib r.sys c.base.nVars r.ctrl = .ok f := by
  obtain ⟨sys, h1, h⟩ := except_bind_ok h
  obtain ⟨k?, h2, h⟩ := except_bind_ok h
  cases k? with
  | none => cases h
  | some k =>
    obtain ⟨f, h3, h⟩ := except_bind_ok h
    obtain ⟨⟨cfg, data⟩, h4, h⟩ := except_bind_ok h
    cases h
    exact ⟨h1, h4, h2, f, h3⟩

section
variable {c : ControlConfig} {r : ReadyControl} {m : ℕ} {F : Pt c.base.nVars → Pt m → Pt c.base.nVars}

theorem ControlRun.sets {w : World R Controller _} {learn} (h : ControlRun c r m F w learn) : SetsRun c.base r.cfg := by
  obtain ⟨w0, ha⟩ := h.accepted
  exact ⟨h.lib, h.domains, _, (readControl_inv ha).2.1⟩

theorem ControlRun2.sets {w : World R Controller _} {learn} (h : ControlRun2 c r m F w learn) : SetsRun c.base r.cfg := by
  obtain ⟨w0, ha⟩ := h.accepted
  exact ⟨h.lib, h.domains, _, (readControl_inv ha).2.1⟩

theorem ControlRun.field {w : World R Controller _} {learn} (h : ControlRun c r m F w learn) {disc net ctrl S out}
    (hs : Solves r.cfg.loop (singleComponents w r.cfg disc learn) net ctrl S out) (hf : out.found = true) :
    field c.base.nVars (w.dynamics out.ctrl) = driven F (rounded5 out.ctrl) ∧ (w.dynamics out.ctrl).length = c.base.nVars := by
  obtain ⟨w0, ha⟩ := h.accepted
  obtain ⟨k, st, V, Vdot, cex, -, hl, -⟩ := C27_success_is_verified _ _ _ _ _ _ hs hf
  have := control_field (readControl_inv ha).1 h.system h.inputs (by simp) (h.dynamics st _ _ hl)
  exact ⟨this.1, this.2.1⟩

theorem ControlRun2.field {w : World R Controller _} {learn} (h : ControlRun2 c r m F w learn) {net ctrl S out}
    (hs : Solves r.cfg.loop (doubleComponents w r.cfg learn) net ctrl S out) (hf : out.found = true) :
    field c.base.nVars (w.dynamics out.ctrl) = driven F (rounded5 out.ctrl) := by
  obtain ⟨w0, ha⟩ := h.accepted
  obtain ⟨k, st, V, Vdot, cex, -, hl, -⟩ := C27_success_is_verified _ _ _ _ _ _ hs hf
  exact (control_field (readControl_inv ha).1 h.system h.inputs (by simp) (h.dynamics st _ _ hl)).1
end

/-- **C59, safety.** If a run started from a configuration file reports success for a Barrier or BarrierAlt certificate in continuous time, then no
trajectory of the system written in the file, driven by the returned controller rounded to five decimals, that starts in the initial set written in the file and stays in the written domain ever
reaches the written unsafe set. -/
theorem C59_control_safety (c : ControlConfig) (r : ReadyControl) (m : ℕ) (F : Pt c.base.nVars → Pt m → Pt c.base.nVars) (w : World R Controller _) (learn) (hr : ControlRun c r m F w learn)
    (hc : c.base.cert = .BARRIER ∨ c.base.cert = .BARRIERALT) (I D U : Set (Pt c.base.nVars)) (hI : Configures c.base.nVars c.base.domains "XI" I)
    (hD : Configures c.base.nVars c.base.domains "XD" D) (hU : Configures c.base.nVars c.base.domains "XU" U) (net ctrl S out)
    (h : Solves r.cfg.loop (singleComponents w r.cfg false learn) net ctrl S out) (hf : out.found = true)
    (T : ℝ) (ξ : ℝ → Pt c.base.nVars) (hξ : Trajectory (driven F (rounded5 out.ctrl)) T ξ) (h0 : ξ 0 ∈ I) (hin : ∀ t ∈ Icc 0 T, ξ t ∈ D) : ∀ t ∈ Icc 0 T, ξ t ∉ U :=
  core_safety hr.sets w hr.sound learn hr.arch hc I D U hI hD hU net ctrl S out h hf T ξ (by rw [(hr.field h hf).1]; exact hξ) h0 hin

/-- **C59, discrete safety.** The same for BarrierAlt in discrete time: no run of the written map driven by the rounded controller from the written initial set, inside the written domain,
reaches the written unsafe set. -/
theorem C59_control_safety_dt (c : ControlConfig) (r : ReadyControl) (m : ℕ) (F : Pt c.base.nVars → Pt m → Pt c.base.nVars) (w : World R Controller _) (learn) (hr : ControlRun c r m F w learn)
    (hc : c.base.cert = .BARRIERALT) (hq : c.base.quad = false) (I D U : Set (Pt c.base.nVars)) (hI : Configures c.base.nVars c.base.domains "XI" I)
    (hD : Configures c.base.nVars c.base.domains "XD" D) (hU : Configures c.base.nVars c.base.domains "XU" U) (net ctrl S out)
    (h : Solves r.cfg.loop (singleComponents w r.cfg true learn) net ctrl S out) (hf : out.found = true)
    (x : ℕ → Pt c.base.nVars) (hx : IsRun (driven F (rounded5 out.ctrl)) x) (h0 : x 0 ∈ I) (k : ℕ) (hin : ∀ j ≤ k, x j ∈ D) : x k ∉ U :=
  core_safety_dt hr.sets w hr.sound learn hr.arch hc hq I D U hI hD hU net ctrl S out h hf (hr.field h hf).2 x (by rw [(hr.field h hf).1]; exact hx) h0 k hin

/-- **C59, stability.** If a run started from a configuration file reports success for a Lyapunov certificate (no LLO) whose network vanishes at the
origin by construction, and the written domain is a neighbourhood of the origin, then the origin is asymptotically stable for
the written system (if that is continuous in states and inputs) driven by the rounded controller. -/
theorem C59_control_stability (c : ControlConfig) (r : ReadyControl) (m : ℕ) (F : Pt c.base.nVars → Pt m → Pt c.base.nVars) (w : World R Controller _) (learn) (hr : ControlRun c r m F w learn)
    (hc : c.base.cert = .LYAPUNOV) (D : Set (Pt c.base.nVars)) (hD : Configures c.base.nVars c.base.domains "XD" D) (hn : D ∈ 𝓝 0) (net ctrl S out)
    (h : Solves r.cfg.loop (singleComponents w r.cfg false learn) net ctrl S out) (hf : out.found = true)
    (hF : Continuous (fun z : Pt c.base.nVars × Pt m => F z.1 z.2)) (hpd : c.base.llo = false ∨ PDNet out.net.1) (hz : c.base.quad = true ∨ ZeroNet out.net.1) : AsympStable (driven F (rounded5 out.ctrl)) := by
  have := core_stability hr.sets w hr.sound learn hr.arch hc D hD hn net ctrl S out h hf (by rw [(hr.field h hf).1]; exact driven_continuous hF _) hpd hz
  rwa [(hr.field h hf).1] at this

/-- **C59, reach while staying.** If a run started from a configuration file reports success for one of the reach certificates, there is a time
bound within which every trajectory of the written system driven by the returned controller rounded to five decimals from the written initial set reaches the written goal, staying in the
written safe set until then. -/
theorem C59_control_reach (c : ControlConfig) (r : ReadyControl) (m : ℕ) (F : Pt c.base.nVars → Pt m → Pt c.base.nVars) (w : World R Controller _) (learn) (hr : ControlRun c r m F w learn)
    (hc : c.base.cert = .RWS ∨ c.base.cert = .RWA ∨ c.base.cert = .RSWS ∨ c.base.cert = .RSWA) (I S D G : Set (Pt c.base.nVars)) (hI : Configures c.base.nVars c.base.domains "XI" I)
    (hS : Configures c.base.nVars c.base.domains "XS" S) (hD : Configures c.base.nVars c.base.domains "XD" D) (hG : Configures c.base.nVars c.base.domains "XG" G)
    (h1 : I ⊆ S) (h2 : I ⊆ D) (h3 : frontier S ⊆ D) (net ctrl Sd out)
    (h : Solves r.cfg.loop (singleComponents w r.cfg false learn) net ctrl Sd out) (hf : out.found = true) :
    ∃ τ : ℝ, ∀ (T : ℝ) (ξ : ℝ → Pt c.base.nVars), Trajectory (driven F (rounded5 out.ctrl)) T ξ → τ ≤ T → ξ 0 ∈ I →
      (∃ t ∈ Icc 0 τ, ξ t ∈ G) ∧ ∀ t ∈ Icc 0 T, ξ t ∈ S ∨ ∃ r ∈ Icc 0 t, ξ r ∈ G := by
  have := core_reach hr.sets w hr.sound learn hr.arch hc I S D G hI hS hD hG h1 h2 h3 net ctrl Sd out h hf
  rwa [(hr.field h hf).1] at this

/-- **C59, reach and stay.** If a run started from a configuration file reports success for RSWS, there is a time bound by which every
trajectory of the written system driven by the returned controller rounded to five decimals from the written initial set is in the written goal for ever, always staying in the written safe set. -/
theorem C59_control_reach_stay (c : ControlConfig) (r : ReadyControl) (m : ℕ) (F : Pt c.base.nVars → Pt m → Pt c.base.nVars) (w : World R Controller _) (learn) (hr : ControlRun c r m F w learn)
    (hc : c.base.cert = .RSWS) (I S D G : Set (Pt c.base.nVars)) (hI : Configures c.base.nVars c.base.domains "XI" I)
    (hS : Configures c.base.nVars c.base.domains "XS" S) (hD : Configures c.base.nVars c.base.domains "XD" D) (hG : Configures c.base.nVars c.base.domains "XG" G)
    (h1 : I ⊆ S) (h2 : I ⊆ D) (h3 : frontier S ⊆ D) (h4 : G ⊆ S) (net ctrl Sd out)
    (h : Solves r.cfg.loop (singleComponents w r.cfg false learn) net ctrl Sd out) (hf : out.found = true) :
    ∃ τ : ℝ, ∀ (T : ℝ) (ξ : ℝ → Pt c.base.nVars), Trajectory (driven F (rounded5 out.ctrl)) T ξ → τ ≤ T → ξ 0 ∈ I →
      (∃ t₁ ∈ Icc 0 τ, ∀ t ∈ Icc t₁ T, ξ t ∈ G) ∧ ∀ t ∈ Icc 0 T, ξ t ∈ S := by
  have := core_reach_stay hr.sets w hr.sound learn hr.arch hc I S D G hI hS hD hG h1 h2 h3 h4 net ctrl Sd out h hf
  rwa [(hr.field h hf).1] at this

/-- **C59, region of attraction.** If a run started from a configuration file reports success for ROA, the written initial set lies in the sublevel set of the
certificate at 1.1 β, and a trajectory of the written system driven by the returned controller rounded to five decimals from there, as long as it is further than 0.01 from the origin,
stays in that sublevel set if it starts strictly inside or LLO is set; with LLO the certificate strictly decreases along it. -/
theorem C59_control_roa (c : ControlConfig) (r : ReadyControl) (m : ℕ) (F : Pt c.base.nVars → Pt m → Pt c.base.nVars) (w : World R Controller _) (learn) (hr : ControlRun c r m F w learn)
    (hc : c.base.cert = .ROA) (I : Set (Pt c.base.nVars)) (hI : Configures c.base.nVars c.base.domains "XI" I) (net ctrl S out)
    (h : Solves r.cfg.loop (singleComponents w r.cfg false learn) net ctrl S out) (hf : out.found = true) :
    (∀ p ∈ I, certValue c.base.rounding c.base.quad out.net.1 p ≤ (out.net.2 : ℝ) * (11/10)) ∧
    ∀ (T : ℝ) (ξ : ℝ → Pt c.base.nVars), Trajectory (driven F (rounded5 out.ctrl)) T ξ → 0 ≤ T → ξ 0 ∈ I → (∀ t ∈ Icc 0 T, (1/100)^2 < normSq (ξ t)) →
      ((c.base.llo = true ∨ certValue c.base.rounding c.base.quad out.net.1 (ξ 0) < (out.net.2 : ℝ) * (11/10)) →
        ∀ t ∈ Icc 0 T, certValue c.base.rounding c.base.quad out.net.1 (ξ t) ≤ (out.net.2 : ℝ) * (11/10)) ∧
      (c.base.llo = true → StrictAntiOn (fun t => certValue c.base.rounding c.base.quad out.net.1 (ξ t)) (Icc 0 T)) := by
  have := core_roa hr.sets w hr.sound learn hr.arch hc I hI net ctrl S out h hf
  rwa [(hr.field h hf).1] at this

/-- **C59, stable while safe.** If a run started from a configuration file reports success for StableSafe, no trajectory of the written system driven by the returned controller rounded to five decimals from the
written initial set, inside the written domain, reaches the written unsafe set. -/
theorem C59_control_stable_safe (c : ControlConfig) (r : ReadyControl) (m : ℕ) (F : Pt c.base.nVars → Pt m → Pt c.base.nVars) (w : World R Controller _) (learn) (hr : ControlRun2 c r m F w learn)
    (hc : c.base.cert = .STABLESAFE) (I D U : Set (Pt c.base.nVars)) (hI : Configures c.base.nVars c.base.domains "XI" I)
    (hD : Configures c.base.nVars c.base.domains "XD" D) (hU : Configures c.base.nVars c.base.domains "XU" U) (net ctrl S out)
    (h : Solves r.cfg.loop (doubleComponents w r.cfg learn) net ctrl S out) (hf : out.found = true)
    (T : ℝ) (ξ : ℝ → Pt c.base.nVars) (hξ : Trajectory (driven F (rounded5 out.ctrl)) T ξ) (h0 : ξ 0 ∈ I) (hin : ∀ t ∈ Icc 0 T, ξ t ∈ D) : ∀ t ∈ Icc 0 T, ξ t ∉ U :=
  core_stable_safe hr.sets w hr.sound learn hr.arch hc I D U hI hD hU net ctrl S out h hf T ξ (by rw [hr.field h hf]; exact hξ) h0 hin

/-- **C59, reach, avoid, remain.** If a run started from a configuration file reports success for RAR, there is a time bound within which every trajectory of the
written system driven by the returned controller rounded to five decimals from the written initial set, inside the written domain, reaches the written goal, staying in the written safe set
until then, and once in the goal it stays in the written final set. -/
theorem C59_control_rar (c : ControlConfig) (r : ReadyControl) (m : ℕ) (F : Pt c.base.nVars → Pt m → Pt c.base.nVars) (w : World R Controller _) (learn) (hr : ControlRun2 c r m F w learn)
    (hc : c.base.cert = .RAR) (I S D G P : Set (Pt c.base.nVars)) (hI : Configures c.base.nVars c.base.domains "XI" I)
    (hS : Configures c.base.nVars c.base.domains "XS" S) (hD : Configures c.base.nVars c.base.domains "XD" D) (hG : Configures c.base.nVars c.base.domains "XG" G)
    (hP : Configures c.base.nVars c.base.domains "XF" P) (h1 : I ⊆ S) (h2 : I ⊆ D) (h3 : frontier S ⊆ D) (net ctrl Sd out)
    (h : Solves r.cfg.loop (doubleComponents w r.cfg learn) net ctrl Sd out) (hf : out.found = true) :
    ∃ τ : ℝ, ∀ (T : ℝ) (ξ : ℝ → Pt c.base.nVars), Trajectory (driven F (rounded5 out.ctrl)) T ξ → τ ≤ T → ξ 0 ∈ I → (∀ t ∈ Icc 0 T, ξ t ∈ D) →
      (∃ t ∈ Icc 0 τ, ξ t ∈ G) ∧ (∀ t ∈ Icc 0 T, ξ t ∈ S ∨ ∃ r ∈ Icc 0 t, ξ r ∈ G) ∧ ∀ r ∈ Icc 0 T, ξ r ∈ G → ∀ t ∈ Icc r T, ξ t ∈ P := by
  have := core_rar hr.sets w hr.sound learn hr.arch hc I S D G P hI hS hD hG hP h1 h2 h3 net ctrl Sd out h hf
  rwa [hr.field h hf] at this

/-- **C59, on the grid.** The returned controller itself (not rounded) is covered if its weights have at most five decimals. -/
theorem C59_control_on_grid {n m : ℕ} (F : Pt n → Pt m → Pt n) (k : Controller) (h : OnGrid5 k) : driven F (rounded5 k) = driven F k := by
  rw [rounded5_of_grid h]

/-- **C59, dReal.** With `VERIFIER: DREAL` the solver assumption of the guarantees is met by every dReal whose `None` answers are right and whose boxes
for confined queries in the state variables are within the variable bounds, if all sets written in the file are inside `(-1000, 1000)ⁿ`, no input is written
twice and the certificate is not ROA. -/
theorem C59_dreal_trusted {N : Type} (c : ControlConfig) (r : ReadyControl) (hd : DomainsDescribed c.base) (hl : c.base.lib = .dreal)
    (w0) (ha : readControl w0 c = .ok r) (m : ℕ) (F : Pt c.base.nVars → Pt m → Pt c.base.nVars)
    (hF : ControlText true c.base.lib.funcs c.base.nVars m c.base.system F) (hm : m ≤ 10)
    (hsm : ∀ k S, Configures c.base.nVars c.base.domains k S → ∀ p ∈ S, ∀ i, -1000 < p i ∧ p i < 1000) (hc : c.base.cert ≠ .ROA)
    (w : World (Option Box) Controller N) (check : ℕ → ℕ → ℕ → Formula → Option Box) (stayCheck : ℕ → ℚ → Bool → ℕ → Formula → Option Box)
    (hb : w.backend = drealBackend) (ho : ∀ i, w.oracle i = drealOracle c.base.nVars (check i))
    (hst : ∀ i β b, w.stayOracle i β b = drealSolve c.base.nVars (stayCheck i β b))
    (sound : ∀ i k, DRealSound (check i k)) (boxes : ∀ i k, BoxesInRange c.base.nVars (check i k))
    (staySound : ∀ i β b, DRealSound (stayCheck i β b)) (stayBoxes : ∀ i β b, BoxesInRange c.base.nVars (stayCheck i β b))
    (hdyn : ∀ k, closedLoop c.base.lib r.sys c.base.nVars k = .ok (w.dynamics k) ∨ w.dynamics k = []) : SoundWorld r.cfg w := by
  have hs : SetsRun c.base r.cfg := ⟨Or.inr hl, hd, _, (readControl_inv ha).2.1⟩
  have hsmall := hs.small hsm
  obtain ⟨doms, hcfg⟩ := hs.cfg
  have hcl : ∀ k, AllBelow c.base.nVars (w.dynamics k) := by
    intro k
    rcases hdyn k with h | h
    · exact (control_field (readControl_inv ha).1 hF hm (fun _ => rfl) h).2.2
    · rw [h]; intro t ht; cases ht
  obtain ⟨cfg, sys, ctrl, data⟩ := r
  simp only at hcfg
  subst hcfg
  exact .dreal w check stayCheck hb ho hst sound boxes staySound stayBoxes hsmall hcl hc

/-! ### non-vacuity -/

/-- `x' = u - x` on `[-4, 4]`, initially in `[-0.5, 0.5]`, avoiding `[2, 3]`; a controller with one hidden neuron. -/
def exControl (lib : Lib) : ControlConfig := ⟨{ exConfigL lib .BARRIER with system := ["u0 - x0"] }, [1, 1], [.IDENTITY]⟩

/-- The controller `u = -x`. -/
def exControlNet : Controller := ⟨[[[1]], [[-1]]], [some .identity]⟩

/-- What the solver sees of the closed loop. -/
def exControlDyn (a : ℚ) : List Term := [.sub (Term.sum [.mul (.const a) (Term.sum [.mul (.const 1) (.var 0)])]) (.var 0)]

/-- The written controlled vector field. -/
def exControlField : Pt 1 → Pt 1 → Pt 1 := fun p u _ => u 0 - p 0

theorem exControl_text (once : Bool) (funcs : FName → Bool) :
    ControlText once funcs 1 1 ["u0 - x0"] exControlField := by
  refine ⟨rfl, fun _ => .sub (.u 0) (.x 0), fun i hi => ⟨[.u 0, .minus, .x 0], ?_, ?_, ⟨[['u', '0'], ['-'], ['x', '0']], ?_, ?_⟩, ?_, ?_, ?_⟩, ?_, ?_⟩
  · exact .sub (a := [.u 0]) (b := [.x 0]) (.sum (.term (.factor (.signed (.u 0))))) (.term (.factor (.signed (.x 0))))
  · rintro ⟨p, a, e, r, h, -⟩
    have : Tok.dstar ∈ [Tok.u 0, .minus, .x 0] := by rw [h]; simp
    simp at this
  · exact .cons (TokText.u (d := ['0']) ⟨digits_of (by decide), Or.inl rfl⟩) (.cons .minus (.cons (TokText.x (d := ['0']) ⟨digits_of (by decide), Or.inl rfl⟩) .nil))
  · obtain rfl : i = 0 := by omega
    exact ⟨[], [' ', '-', ' ', 'x', '0'], by simp [Blank], rfl, [' '], [' ', 'x', '0'], by simp [Blank], rfl, [' '], [], by simp [Blank], rfl, by simp [Layout, Blank]⟩
  · intro j hj; simp [AExpr.xs] at hj; omega
  · intro j hj; simp [AExpr.us] at hj; omega
  · intro p u
    simp [AExpr.eval, Pt.env, exControlField]
  · intro j hj; exact ⟨0, by omega, by simp [AExpr.us]; omega⟩
  · intro _; simp [AExpr.us, List.range_succ]

theorem readControlled_ok {lib : Lib} {texts : List String} {num sys : List AExpr} (h1 : texts.mapM (parseText drealFuncs) = .ok num)
    (h2 : numericOk num = .ok ()) (hl : lib ≠ .sympy) (h3 : texts.mapM (parseText lib.funcs) = .ok sys) (h4 : (inputArgs sys).length ≠ 0)
    (h5 : texts.length = (stateArgs sys).length) : readControlled lib texts = .ok sys := by
  simp only [readControlled, h1, h2, h3, Bind.bind, Except.bind]
  rw [if_neg hl, if_neg h4, if_neg (by simpa using h5)]

theorem readControl_ok {w0 : ℕ → ℕ → ℕ → ℚ} {c : ControlConfig} {sys k f cfg data} (h1 : readControlled c.base.lib c.base.system = .ok sys)
    (h2 : controllerOf w0 c.base.nVars c.ctrlayer c.ctrlacts = .ok (some k)) (h3 : closedLoop c.base.lib sys c.base.nVars k = .ok f)
    (h4 : readSets c.base = .ok (cfg, data)) : readControl w0 c = .ok ⟨cfg, sys, k, data⟩ := by
  simp only [readControl, h1, h2, h3, h4, Bind.bind, Except.bind, pure, Except.pure]

theorem one_arg : sortByName [0] = [0] := by simp [sortByName]

theorem exControl_read (lib : Lib) (hl : lib = .z3 ∨ lib = .dreal) : readControlled lib ["u0 - x0"] = .ok [.sub (.u 0) (.x 0)] := by
  have hd : (["u0 - x0"] : List String).mapM (parseText drealFuncs) = .ok [.sub (.u 0) (.x 0)] := rfl
  have hz : (["u0 - x0"] : List String).mapM (parseText z3Funcs) = .ok [.sub (.u 0) (.x 0)] := rfl
  have hi : inputArgs [.sub (.u 0) (.x 0)] = [0] := one_arg
  have hx : stateArgs [.sub (.u 0) (.x 0)] = [0] := one_arg
  rcases hl with rfl | rfl
  · exact readControlled_ok hd rfl (by decide) hz (by rw [hi]; decide) (by rw [hx]; rfl)
  · exact readControlled_ok hd rfl (by decide) hd (by rw [hi]; decide) (by rw [hx]; rfl)

theorem exControl_closed (lib : Lib) (hl : lib = .z3 ∨ lib = .dreal) (a : ℚ) (ha : npRound 5 a = a) :
    closedLoop lib [.sub (.u 0) (.x 0)] 1 ⟨[[[1]], [[a]]], [some .identity]⟩ = .ok (exControlDyn a) := by
  have h1 : npRound 5 1 = 1 := by decide +kernel
  have hi : inputArgs [.sub (.u 0) (.x 0)] = [0] := one_arg
  rcases hl with rfl | rfl
  · rw [closedLoop, if_neg (by decide)]
    simp [closedSmt, Controller.toSymbolic, zipSym, matVec, round5, vars, symAct, Act.forwardSym, h1, ha, parsedOpen, hi, AExpr.xs, AExpr.toTerm?, exControlDyn]
  · rw [closedLoop, if_pos rfl]
    simp [closedSmt, Controller.toSymbolic, zipSym, matVec, round5, vars, symAct, Act.forwardSym, h1, ha, parsedOpenDreal, hi, AExpr.xs, AExpr.us, AExpr.toTerm?,
      exControlDyn, numberSys, AExpr.numberUs, drealInput]

theorem exControl_ready (lib : Lib) (hl : lib = .z3 ∨ lib = .dreal) : ∃ data, readControl (fun _ _ _ => 1) (exControl lib) =
    .ok ⟨⟨lib, 1, .BARRIER, (exBarrier .BARRIER).domains, false, 3, false, 10⟩, [.sub (.u 0) (.x 0)], ⟨[[[1]], [[1]]], [some .identity]⟩, data⟩ := by
  obtain ⟨data, h⟩ := exConfig_readyL lib hl .BARRIER (Or.inl rfl)
  have h := (readConfig_inv h).2
  exact ⟨data, readControl_ok (exControl_read lib hl) rfl (exControl_closed lib hl 1 (by decide +kernel)) h⟩

/-- The dynamics of all controllers. -/
noncomputable def closedDyn (lib : Lib) (sys : List AExpr) (n : ℕ) (k : Controller) : List Term :=
  match closedLoop lib sys n k with
  | .ok f => f
  | .error _ => []

theorem exControl_refuted : ∃ groups, queriesCT { exBarrier .BARRIER with f := exControlDyn (-1) } = .ok groups ∧ DistinctLabels groups ∧
    ∀ g ∈ groups, ∀ q ∈ g, ∀ ρ : Env, ¬ q.2.holds ρ := by
  have h1 : roundBy 3 1 = 1 := by decide +kernel
  have h0 : roundBy 3 0 = 0 := by decide +kernel
  refine ⟨_, rfl, by simp [DistinctLabels, queries, XI, XU, XD], ?_⟩
  intro g hg q hq ρ h
  simp only [List.mem_cons, List.not_mem_nil, or_false] at hg
  rcases hg with rfl | rfl <;> simp only [List.mem_cons, List.not_mem_nil, or_false] at hq
  · rcases hq with rfl | rfl
    all_goals
      simp [Formula.holds, Formula.conj, Term.eval, Term.sum, leZero, geZero, gtZero, factors, vars, h1, h0,
        exBarrier, eyeJac, postVal, postGrad, gradTerms, hiddenBias, diagJac] at h
      norm_num at h
      norm_cast at h
    · have h2 : |ρ 0| ≤ 1/2 := abs_le.2 ⟨by linarith [h.1.2.1], by linarith [h.1.2.2]⟩
      linarith [h.1.1]
    · have h2 := h.1.1
      rw [abs_le] at h2
      linarith [h.1.2.1]
  · subst hq
    simp [Formula.holds, Formula.conj, Term.eval, Term.sum, leZero, geZero, gtZero, factors, vars, h1, h0,
        exBarrier, eyeJac, postVal, postGrad, gradTerms, hiddenBias, diagJac, exControlDyn] at h
    norm_num at h
    try simp only [zpow_ofNat] at h
    nlinarith [h.1, mul_self_nonneg (ρ 0)]

/-- A complete run from this file with Z3: all hypotheses of `C59_control_safety` hold. The trained controller differs from the initial one. -/
theorem exControl_run : ∃ (r : ReadyControl) (w : World Answer Controller (Net × ℚ)) (learn : _),
    ControlRun (exControl .z3) r 1 exControlField w learn ∧
    ∃ net ctrl out, Solves r.cfg.loop (singleComponents w r.cfg false learn) net ctrl [] out ∧ out.found = true ∧ out.ctrl = exControlNet := by
  obtain ⟨data, hr⟩ := exControl_ready .z3 (Or.inl rfl)
  obtain ⟨s1, s2, s3⟩ := exConfig_sets
  have hcl := exControl_closed .z3 (Or.inl rfl) (-1) (by decide +kernel)
  refine ⟨_, idealWorldK _ (closedDyn .z3 [.sub (.u 0) (.x 0)] 1), fun _ => .ok (((exBarrier .BARRIER).net, 0), exControlNet),
    ⟨Or.inl rfl, ⟨by decide, ?_⟩, exControl_text _ _, by decide, ⟨_, hr⟩, idealWorldK_sound _ _ _, ?_, ?_⟩, ?_⟩
  · intro k s hm
    simp only [exControl, exConfigL, List.mem_cons, Prod.mk.injEq, List.not_mem_nil, or_false] at hm
    rcases hm with ⟨-, rfl⟩ | ⟨-, rfl⟩ | ⟨-, rfl⟩
    exacts [⟨_, s1⟩, ⟨_, s2⟩, ⟨_, s3⟩]
  · intro st n k h
    cases h
    simp only [idealWorldK, closedDyn, exControlNet]
    change closedLoop .z3 _ 1 _ = _
    rw [hcl]
  · intro st n k h
    cases h
    exact ⟨rfl, (exBarrier_smooth .BARRIER).smooth⟩
  · obtain ⟨g, hq, hd, ha⟩ := exControl_refuted
    have hdyn : closedDyn .z3 [.sub (.u 0) (.x 0)] 1 exControlNet = exControlDyn (-1) := by simp only [closedDyn, exControlNet, hcl]
    obtain ⟨out, h1, h2, -, h4⟩ := synthesis_succeeds ⟨.z3, 1, .BARRIER, (exBarrier .BARRIER).domains, false, 3, false, 10⟩ (exBarrier .BARRIER).net 0
      (closedDyn .z3 [.sub (.u 0) (.x 0)] 1) exControlNet g (by rw [hdyn]; exact hq) hd ha (by intro h; cases h)
    exact ⟨_, _, out, h1, h2, h4⟩

/-- The same with dReal. -/
theorem exControl_run_dreal : ∃ (r : ReadyControl) (w : World (Option Box) Controller (Net × ℚ)) (learn : _),
    ControlRun (exControl .dreal) r 1 exControlField w learn ∧
    ∃ net ctrl out, Solves r.cfg.loop (singleComponents w r.cfg false learn) net ctrl [] out ∧ out.found = true ∧ out.ctrl = exControlNet := by
  obtain ⟨data, hr⟩ := exControl_ready .dreal (Or.inr rfl)
  obtain ⟨s1, s2, s3⟩ := exConfig_sets
  have hcl := exControl_closed .dreal (Or.inr rfl) (-1) (by decide +kernel)
  have hdyn : closedDyn .dreal [.sub (.u 0) (.x 0)] 1 exControlNet = exControlDyn (-1) := by simp only [closedDyn, exControlNet, hcl]
  have hbel : ∀ k, AllBelow 1 (closedDyn .dreal [.sub (.u 0) (.x 0)] 1 k) := by
    intro k
    unfold closedDyn
    cases hk : closedLoop .dreal [.sub (.u 0) (.x 0)] 1 k with
    | error e => intro t ht; cases ht
    | ok f => exact (control_field (exControl_read .dreal (Or.inr rfl)) (exControl_text true _) (by decide) (fun _ => rfl) hk).2.2
  refine ⟨_, drealWorld 1 _ (closedDyn .dreal [.sub (.u 0) (.x 0)] 1), fun _ => .ok (((exBarrier .BARRIER).net, 0), exControlNet),
    ⟨Or.inr rfl, ⟨by decide, ?_⟩, exControl_text _ _, by decide, ⟨_, hr⟩, drealWorld_sound _ _ _ (exDreal_small .BARRIER) hbel (by intro h; cases h), ?_, ?_⟩, ?_⟩
  · intro k s hm
    simp only [exControl, exConfigL, List.mem_cons, Prod.mk.injEq, List.not_mem_nil, or_false] at hm
    rcases hm with ⟨-, rfl⟩ | ⟨-, rfl⟩ | ⟨-, rfl⟩
    exacts [⟨_, s1⟩, ⟨_, s2⟩, ⟨_, s3⟩]
  · intro st n k h
    cases h
    change closedLoop .dreal _ 1 _ = .ok (closedDyn _ _ _ _)
    rw [hdyn]
    exact hcl
  · intro st n k h
    cases h
    exact ⟨rfl, (exBarrier_smooth .BARRIER).smooth⟩
  · obtain ⟨g, hq, hd, ha⟩ := exControl_refuted
    obtain ⟨cex, hv⟩ := dreal_verifies 1 g hd ha
    have hq' : queriesCT ⟨.dreal, 1, .BARRIER, (exBarrier .BARRIER).domains, false, 3, false, (exBarrier .BARRIER).net, exControlDyn (-1), 0⟩ = .ok g := hq
    unfold queriesCT at hq'
    obtain ⟨d, hdd, hq'⟩ := except_bind_ok hq'
    obtain ⟨⟨V, Vdot⟩, ht, hq'⟩ := except_bind_ok hq'
    obtain ⟨out, h1, h2, -, h4⟩ := first_pass (SynthCfg.loop ⟨.dreal, 1, .BARRIER, (exBarrier .BARRIER).domains, false, 3, false, 10⟩)
      (singleComponents (drealWorld 1 _ (closedDyn .dreal [.sub (.u 0) (.x 0)] 1))
        ⟨.dreal, 1, .BARRIER, (exBarrier .BARRIER).domains, false, 3, false, 10⟩ false
        (fun _ => .ok (((exBarrier .BARRIER).net, 0), exControlNet))) ((exBarrier .BARRIER).net, 0) exControlNet [] ((exBarrier .BARRIER).net, 0) exControlNet
      V Vdot cex [] rfl (by
        change translateCT .dreal 3 none false (exBarrier .BARRIER).net (vars 1) (closedDyn .dreal [.sub (.u 0) (.x 0)] 1 exControlNet) = _
        rw [hdyn]; exact ht)
      (by
        change (initialiseDomains .dreal 1 .BARRIER _ >>= _) = _
        simp only [exBarrier] at hdd hq' hv
        simp only [exBarrier, singleComponents, drealWorld, bind, Except.bind, hdd, hq', hv, pure, Except.pure]) rfl rfl (by intro h; cases h)
    exact ⟨_, _, out, h1, h2, h4⟩

/-- The guarantee for the example, in plain terms: no solution of `x' = u - x` with `u` from the returned controller goes from `[-0.5, 0.5]` to `[2, 3]`
inside `[-4, 4]`. -/
example : ∃ k : Controller, ∀ (T : ℝ) (ξ : ℝ → Pt 1), Trajectory (driven exControlField (rounded5 k)) T ξ → (-1/2 ≤ ξ 0 0 ∧ ξ 0 0 ≤ 1/2) →
    (∀ t ∈ Icc 0 T, -4 ≤ ξ t 0 ∧ ξ t 0 ≤ 4) → ∀ t ∈ Icc 0 T, ¬ (2 ≤ ξ t 0 ∧ ξ t 0 ≤ 3) := by
  obtain ⟨r, w, learn, hr, net, ctrl, out, h1, h2, -⟩ := exControl_run
  obtain ⟨s1, s2, s3⟩ := exConfig_sets
  refine ⟨out.ctrl, fun T ξ hξ h0 hin t ht hU => ?_⟩
  refine C59_control_safety (exControl .z3) r 1 exControlField w learn hr (Or.inl rfl) _ _ _ ⟨_, by simp [exControl, exConfigL], s2⟩
    ⟨_, by simp [exControl, exConfigL], s1⟩ ⟨_, by simp [exControl, exConfigL], s3⟩ net ctrl [] out h1 h2 T ξ hξ ?_ ?_ t ht ?_
  · intro i; obtain rfl : i = 0 := Subsingleton.elim _ _; simpa [entry] using h0
  · intro t ht i; obtain rfl : i = 0 := Subsingleton.elim _ _; simpa [entry] using hin t ht
  · intro i; obtain rfl : i = 0 := Subsingleton.elim _ _; simpa [entry] using hU

/-! ### an input written twice -/

/-- `x' = x + u + u`; sets as above. -/
def exRepeat : ControlConfig := ⟨{ exConfigL .dreal .BARRIER with system := ["x0+u0+u0"] }, [1, 1], [.IDENTITY]⟩

/-- The written controlled vector field. -/
def exRepeatField : Pt 1 → Pt 1 → Pt 1 := fun p u _ => p 0 + u 0 + u 0

/-- The controller `u = x`. -/
def exRepeatNet : Controller := ⟨[[[1]], [[1]]], [some .identity]⟩

def exRepeatSys : List AExpr := [.add (.add (.x 0) (.u 0)) (.u 0)]

/-- What dReal sees: the first `u0` has become a variable of its own. -/
def exRepeatDyn : List Term := [.add (.add (.var 0) (.var 1)) (Term.sum [.mul (.const 1) (Term.sum [.mul (.const 1) (.var 0)])])]

theorem exRepeat_text : ControlText false drealFuncs 1 1 exRepeat.base.system exRepeatField := by
  refine ⟨rfl, fun _ => .add (.add (.x 0) (.u 0)) (.u 0), fun i hi => ⟨[.x 0, .plus, .u 0, .plus, .u 0], ?_, ?_,
    ⟨[['x', '0'], ['+'], ['u', '0'], ['+'], ['u', '0']], ?_, ?_⟩, ?_, ?_, ?_⟩, ?_, (by intro h; cases h)⟩
  · exact .add (a := [.x 0, .plus, .u 0]) (b := [.u 0]) (.add (a := [.x 0]) (b := [.u 0]) (.sum (.term (.factor (.signed (.x 0)))))
      (.term (.factor (.signed (.u 0))))) (.term (.factor (.signed (.u 0))))
  · rintro ⟨p, a, e, r, h, -⟩
    have : Tok.dstar ∈ [Tok.x 0, .plus, .u 0, .plus, .u 0] := by rw [h]; simp
    simp at this
  · have hx : TokText (.x 0) ['x', '0'] := TokText.x (d := ['0']) ⟨digits_of (by decide), Or.inl rfl⟩
    have hu : TokText (.u 0) ['u', '0'] := TokText.u (d := ['0']) ⟨digits_of (by decide), Or.inl rfl⟩
    exact .cons hx (.cons .plus (.cons hu (.cons .plus (.cons hu .nil))))
  · obtain rfl : i = 0 := by omega
    exact ⟨[], ['+', 'u', '0', '+', 'u', '0'], by simp [Blank], rfl, [], ['u', '0', '+', 'u', '0'], by simp [Blank], rfl,
      [], ['+', 'u', '0'], by simp [Blank], rfl, [], ['u', '0'], by simp [Blank], rfl, [], [], by simp [Blank], rfl, by simp [Layout, Blank]⟩
  · intro j hj; simp [AExpr.xs] at hj; omega
  · intro j hj; simp [AExpr.us] at hj; omega
  · intro p u
    simp [AExpr.eval, Pt.env, exRepeatField]
  · intro j hj; exact ⟨0, by omega, by simp [AExpr.us]; omega⟩

theorem exRepeat_closed : closedLoop .dreal exRepeatSys 1 exRepeatNet = .ok exRepeatDyn := by
  have h1 : npRound 5 1 = 1 := by decide +kernel
  have hi : inputArgs exRepeatSys = [0] := one_arg
  rw [closedLoop, if_pos rfl]
  simp only [closedSmt, exRepeatNet, Controller.toSymbolic, zipSym, matVec, round5, vars, symAct, Act.forwardSym, parsedOpenDreal, hi]
  simp [h1, exRepeatSys, AExpr.xs, AExpr.us, AExpr.toTerm?, numberSys, AExpr.numberUs, drealInput, exRepeatDyn, one_arg, inputArgs]

theorem exRepeat_ready : ∃ data, readControl (fun _ _ _ => 1) exRepeat =
    .ok ⟨⟨.dreal, 1, .BARRIER, (exBarrier .BARRIER).domains, false, 3, false, 10⟩, exRepeatSys, exRepeatNet, data⟩ := by
  obtain ⟨data, h⟩ := exConfig_readyL .dreal (Or.inr rfl) .BARRIER (Or.inl rfl)
  have hd : exRepeat.base.system.mapM (parseText drealFuncs) = .ok exRepeatSys := by decide +kernel
  have hi : inputArgs exRepeatSys = [0] := one_arg
  have hx : stateArgs exRepeatSys = [0] := one_arg
  exact ⟨data, readControl_ok (readControlled_ok hd rfl (by decide) hd (by rw [hi]; decide) (by rw [hx]; rfl)) rfl exRepeat_closed (readConfig_inv h).2⟩

/-- The assignment given by the midpoints of a box. -/
def Box.point (bx : Box) : Env := fun i => ((Dict.get? bx i).getD 0 : ℚ)

/-- A box with state 1 and the leftover input `b`. -/
def exFarBox (b : ℚ) : Box := [(0, 1), (1, b)]

/-- A perfect decision procedure that prefers this box. -/
noncomputable def farCheck (b : ℚ) (φ : Formula) : Option Box :=
  open Classical in if φ.holds (exFarBox b).point then some (exFarBox b) else idealCheck φ

theorem farCheck_none {b : ℚ} {φ : Formula} : farCheck b φ = none ↔ ∀ ρ : Env, ¬ φ.holds ρ := by
  unfold farCheck
  split_ifs with h
  · exact ⟨fun h => (by cases h), fun h' => absurd h (h' _)⟩
  · exact idealCheck_none

theorem farCheck_genuine {b : ℚ} {φ : Formula} {bx : Box} (h : farCheck b φ = some bx) : bx = [] ∨ φ.holds bx.point := by
  unfold farCheck at h
  split_ifs at h with h'
  · cases h; exact Or.inr h'
  · unfold idealCheck at h
    split_ifs at h
    cases h
    exact Or.inl rfl

/-- The world of this dReal. -/
noncomputable def farWorld (b : ℚ) : World (Option Box) Controller (Net × ℚ) :=
  ⟨drealBackend, fun _ => drealOracle 1 fun _ _ => farCheck b, fun _ _ _ => drealSolve 1 fun _ => farCheck b, fun _ _ _ _ => 0, closedDyn .dreal exRepeatSys 1,
    fun _ x => x, fun _ _ _ _ => .ok [], fun _ => .ok ()⟩

theorem exRepeat_queries (b : ℚ) (hb : 0 < b) : ∃ φ₁ φ₂ φ₃, queriesCT ⟨.dreal, 1, .BARRIER, (exBarrier .BARRIER).domains, false, 3, false, (exBarrier .BARRIER).net, exRepeatDyn, 0⟩
      = .ok [[(XI, φ₁), (XU, φ₂)], [(XD, φ₃)]] ∧
    (∀ ρ : Env, ¬ φ₁.holds ρ) ∧ (∀ ρ : Env, ¬ φ₂.holds ρ) ∧ φ₃.holds (exFarBox b).point ∧ (secondChance 1 φ₃).holds (exFarBox b).point := by
  have h1 : roundBy 3 1 = 1 := by decide +kernel
  have h0 : roundBy 3 0 = 0 := by decide +kernel
  have e0 : (exFarBox b).point 0 = 1 := by simp [Box.point, exFarBox, Dict.get?]
  have e1 : (exFarBox b).point 1 = b := by simp [Box.point, exFarBox, Dict.get?]
  refine ⟨_, _, _, rfl, ?_, ?_, ?_, ?_⟩
  · intro ρ h
    simp [Formula.holds, Formula.conj, Term.eval, Term.sum, leZero, geZero, gtZero, factors, vars, h1, h0,
        exBarrier, eyeJac, postVal, postGrad, gradTerms, hiddenBias, diagJac] at h
    norm_num at h
    norm_cast at h
    have h2 : |ρ 0| ≤ 1/2 := abs_le.2 ⟨by linarith [h.1.2.1], by linarith [h.1.2.2]⟩
    linarith [h.1.1]
  · intro ρ h
    simp [Formula.holds, Formula.conj, Term.eval, Term.sum, leZero, geZero, gtZero, factors, vars, h1, h0,
        exBarrier, eyeJac, postVal, postGrad, gradTerms, hiddenBias, diagJac] at h
    norm_num at h
    norm_cast at h
    have h2 := h.1.1
    rw [abs_le] at h2
    linarith [h.1.2.1]
  · simp [Formula.holds, Formula.conj, Term.eval, Term.sum, leZero, geZero, gtZero, factors, vars, h1, h0,
        exBarrier, eyeJac, postVal, postGrad, gradTerms, hiddenBias, diagJac, exRepeatDyn, e0, e1]
    have hb' : (0:ℝ) < b := by exact_mod_cast hb
    norm_num
    positivity
  · simp [secondChance, Formula.holds, Formula.conj, Term.eval, Term.sum, leZero, geZero, gtZero, factors, vars, h1, h0,
        exBarrier, eyeJac, postVal, postGrad, gradTerms, hiddenBias, diagJac, exRepeatDyn, e0, e1]
    have hb' : (0:ℝ) < b := by exact_mod_cast hb
    norm_num
    positivity

theorem exRepeat_verify {b : ℚ} (hb : 10 ^ 300 ≤ b) {φ₁ φ₂ φ₃ : Formula} (h1 : ∀ ρ : Env, ¬ φ₁.holds ρ) (h2 : ∀ ρ : Env, ¬ φ₂.holds ρ) (h3 : φ₃.holds (exFarBox b).point)
    (h4 : (secondChance 1 φ₃).holds (exFarBox b).point) :
    ∃ cex, verify drealBackend 1 (fun _ _ _ => 0) (drealOracle 1 fun _ _ => farCheck b) [[(XI, φ₁), (XU, φ₂)], [(XD, φ₃)]] = .ok ⟨true, cex⟩ := by
  have hw : withinBounds (some (exFarBox b)) = false := by
    rw [← Bool.not_eq_true, withinBounds_iff]
    intro h
    exact absurd (h (1, b) (by simp [exFarBox])).2 (not_lt.2 hb)
  have s1 : drealSolve 1 (fun _ => farCheck b) φ₁ = none := by simp [drealSolve, farCheck_none.2 h1, drealIsSat]
  have s2 : drealSolve 1 (fun _ => farCheck b) φ₂ = none := by simp [drealSolve, farCheck_none.2 h2, drealIsSat]
  have s3 : drealSolve 1 (fun _ => farCheck b) φ₃ = some (exFarBox b) := by
    have a : farCheck b φ₃ = some (exFarBox b) := if_pos h3
    have b : farCheck b (secondChance 1 φ₃) = some (exFarBox b) := if_pos h4
    simp [drealSolve, a, b]
  simp [verify, solveGroups, solveGroup, drealOracle, s1, s2, s3, Dict.set, Dict.values, drealBackend, drealIsSat, hw, XI, XU, XD, drealIsUnsat]

/-- **C59, repeated inputs with dReal.** What is verified when an input is written several times: the occurrence numbered `j` that is not the last of its
input is a variable of its own, `n + j`, apart from the states. Where these variables have the values of the controller, the formulas are the written system
driven by the rounded controller; so a query without any solution excludes counterexamples of that system too. -/
theorem C59_dreal_occurrences {n m : ℕ} {texts : List String} {sys : List AExpr} (h : readControlled .dreal texts = .ok sys)
    {F : Pt n → Pt m → Pt n} (hF : ControlText false drealFuncs n m texts F) (hm : m ≤ 10)
    {k : Controller} {f : List Term} (hk : closedLoop .dreal sys n k = .ok f) :
    ∃ input : ℕ → ℕ, ∀ (p : Pt n) (ρ : Env), (∀ i : Fin n, ρ i = p i) → (∀ j, ρ (n + j) = (controlValue m (rounded5 k) p).env (input j)) →
      ∀ i : Fin n, (f.getD i (.const 0)).eval ρ = driven F (rounded5 k) p i := by
  have h1 := readControlled_inv h
  obtain ⟨m1, m2⟩ := mapM_parse _ _ h1
  obtain ⟨hlen, es, he, hcov, -⟩ := hF
  have key : ∀ i (hi : i < n), ∃ v, sys[i]? = some v ∧ v.xs = (es i).xs ∧ v.us = (es i).us ∧ ∀ ρ μ, v.eval ρ μ = (es i).eval ρ μ := by
    intro i hi
    have hi' : i < texts.length := by rw [hlen]; exact hi
    obtain ⟨v, k1, k2⟩ := m2 i hi'
    obtain ⟨ts, hd, hmp, hsp, -⟩ := he i hi
    rw [List.getD_eq_getElem?_getD, List.getElem?_eq_getElem hi', Option.getD_some] at hsp
    obtain ⟨hev, hxs, hus⟩ := accepted_denotes hsp hd hmp k2
    exact ⟨v, k1, hxs, hus, hev⟩
  have hsl : sys.length = n := by rw [m1, hlen]
  have key' : ∀ v ∈ sys, ∃ i, ∃ hi : i < n, sys[i]? = some v := by
    intro v hv
    obtain ⟨i, hi, rfl⟩ := List.getElem_of_mem hv
    exact ⟨i, by omega, List.getElem?_eq_getElem hi⟩
  have hmem : ∀ j, j ∈ sys.flatMap AExpr.us ↔ j < m := by
    intro j
    rw [List.mem_flatMap]
    constructor
    · rintro ⟨v, hv, hj⟩
      obtain ⟨i, hi, hvi⟩ := key' v hv
      obtain ⟨v', k1, -, k3, -⟩ := key i hi
      rw [hvi] at k1
      cases k1
      exact (he i hi).choose_spec.2.2.2.2.1 j (by rw [← k3]; exact hj)
    · intro hj
      obtain ⟨i, hi, hji⟩ := hcov j hj
      obtain ⟨v, k1, -, k3, -⟩ := key i hi
      exact ⟨v, List.mem_of_getElem? k1, by rw [k3]; exact hji⟩
  have hargs : inputArgs sys = List.range m := by
    refine sortByName_small ?_ hm
    refine (List.perm_ext_iff_of_nodup (List.nodup_dedup _) List.nodup_range).2 fun j => ?_
    rw [List.mem_dedup, hmem, List.mem_range]
  unfold closedLoop closedSmt at hk
  split at hk
  · cases hk
  rename_i u hu
  rw [if_pos rfl] at hk
  simp only [parsedOpenDreal] at hk
  split_ifs at hk
  split at hk
  · rename_i fs hfs
    cases hk
    refine ⟨fun j => ((sys.flatMap AExpr.us)[j]?).getD 0, fun p ρ hρ hfree i => ?_⟩
    have hvars : (vars n).map (Term.eval ρ) = coordList p := by
      rw [← vars_coordList]
      refine List.map_congr_left fun t ht => ?_
      simp only [vars, List.mem_map, List.mem_range] at ht
      obtain ⟨j, hj, rfl⟩ := ht
      simp [Term.eval, Pt.env, hj, hρ ⟨j, hj⟩]
    have hval : ∀ j (hj : j < m), ∀ s, u[j]? = some s → s.eval ρ = controlValue m (rounded5 k) p ⟨j, hj⟩ := by
      intro j hj s hs
      have := C38_symbolic_is_rounded_numeric .dreal k _ u hu ρ
      rw [hvars] at this
      simp [controlValue, this, List.getD_eq_getElem?_getD, hs]
    obtain ⟨o1, o2, -⟩ := mapM_term _ _ hfs
    obtain ⟨v, k1, k2, k3, k4⟩ := key i i.2
    obtain ⟨t, q1, q2⟩ := o2 i _ (numberSys_get sys 0 k1)
    rw [List.getD_eq_getElem?_getD, q1, Option.getD_some]
    have := AExpr.toTerm?_eval (μ := fun j => (controlValue m (rounded5 k) p).env (((sys.flatMap AExpr.us)[j]?).getD 0)) (ρ := ρ) ?_ q2
    · rw [this, AExpr.numberUs_eval (μ := (controlValue m (rounded5 k) p).env) v _ ?_, k4]
      · show _ = F p (controlValue m (rounded5 k) p) i
        rw [(he i i.2).choose_spec.2.2.2.2.2 p]
        refine AExpr.eval_states _ fun j hj => ?_
        have hjn := (he i i.2).choose_spec.2.2.2.1 j hj
        simp [Pt.env, hjn, hρ ⟨j, hjn⟩]
      · intro j a hj
        rw [zero_add, flatMap_us_get sys k1 hj]
        rfl
    · intro j hj s hs'
      rw [AExpr.numberUs_us, List.mem_map] at hj
      obtain ⟨j', hj', rfl⟩ := hj
      have hj'' : j' < v.us.length := List.mem_range.1 hj'
      have hg := flatMap_us_get sys k1 (List.getElem?_eq_getElem hj'')
      rw [zero_add] at hs' ⊢
      have hlt : v.us[j'] < m := (hmem _).1 (List.mem_of_getElem? hg)
      simp only [drealInput, hg] at hs'
      split_ifs at hs'
      · cases hs'
        exact hfree _
      · rw [hargs, idxOf_range hlt] at hs'
        rw [hval _ hlt s hs', hg]
        simp [Pt.env, hlt]
  · cases hk

/-- **C59, the defect.** With dReal, an input written twice in the file breaks the guarantee: the file `x' = x + u + u` is accepted, every answer of dReal is
correct (no answer exactly for the unsatisfiable queries, and boxes that are solutions), the run reports success for a controller with integer weights,
and yet the written system driven by that controller goes from the initial set to the unsafe set inside the domain. -/
theorem C59_dreal_repeated_input_unsound :
    ∃ (r : ReadyControl) (w : World (Option Box) Controller (Net × ℚ)) (learn : _) (check : Formula → Option Box) (net : Net × ℚ) (ctrl : Controller) (out : _),
      (∃ w0, readControl w0 exRepeat = .ok r) ∧ DomainsDescribed exRepeat.base ∧ ControlText false drealFuncs 1 1 exRepeat.base.system exRepeatField ∧
      w.backend = drealBackend ∧ (∀ i, w.oracle i = drealOracle 1 fun _ _ => check) ∧
      (∀ φ, check φ = none ↔ ∀ ρ : Env, ¬ φ.holds ρ) ∧ (∀ φ bx, check φ = some bx → bx = [] ∨ φ.holds bx.point) ∧
      (∀ st n k, learn st = .ok (n, k) → closedLoop .dreal r.sys 1 k = .ok (w.dynamics k) ∧ n.1.inputSize = 1 ∧ smoothActs n.1) ∧
      Solves r.cfg.loop (singleComponents w r.cfg false learn) net ctrl [] out ∧ out.found = true ∧ OnGrid5 out.ctrl ∧
      ∃ I D U : Set (Pt 1), Configures 1 exRepeat.base.domains "XI" I ∧ Configures 1 exRepeat.base.domains "XD" D ∧ Configures 1 exRepeat.base.domains "XU" U ∧
        ∃ (T : ℝ) (ξ : ℝ → Pt 1), 0 < T ∧ Trajectory (driven exRepeatField out.ctrl) T ξ ∧ ξ 0 ∈ I ∧ (∀ t ∈ Icc 0 T, ξ t ∈ D) ∧ ξ T ∈ U := by
  obtain ⟨data, hr⟩ := exRepeat_ready
  obtain ⟨s1, s2, s3⟩ := exConfig_sets
  obtain ⟨b, hb⟩ : ∃ b : ℚ, 10 ^ 300 ≤ b := ⟨_, le_rfl⟩
  obtain ⟨φ₁, φ₂, φ₃, hq, h1, h2, h3, h4⟩ := exRepeat_queries b (lt_of_lt_of_le (by positivity) hb)
  obtain ⟨cex, hv⟩ := exRepeat_verify hb h1 h2 h3 h4
  have hdyn : closedDyn .dreal exRepeatSys 1 exRepeatNet = exRepeatDyn := by simp only [closedDyn, exRepeat_closed]
  unfold queriesCT at hq
  obtain ⟨d, hdd, hq⟩ := except_bind_ok hq
  obtain ⟨⟨V, Vdot⟩, ht, hq⟩ := except_bind_ok hq
  obtain ⟨out, o1, o2, -, o4⟩ := first_pass (SynthCfg.loop ⟨.dreal, 1, .BARRIER, (exBarrier .BARRIER).domains, false, 3, false, 10⟩)
    (singleComponents (farWorld b) ⟨.dreal, 1, .BARRIER, (exBarrier .BARRIER).domains, false, 3, false, 10⟩ false
      (fun _ => .ok (((exBarrier .BARRIER).net, 0), exRepeatNet))) ((exBarrier .BARRIER).net, 0) exRepeatNet [] ((exBarrier .BARRIER).net, 0) exRepeatNet
    V Vdot cex [] rfl (by
      change translateCT .dreal 3 none false (exBarrier .BARRIER).net (vars 1) (closedDyn .dreal exRepeatSys 1 exRepeatNet) = _
      rw [hdyn]; exact ht)
    (by
      change (initialiseDomains .dreal 1 .BARRIER _ >>= _) = _
      simp only [exBarrier] at hdd hq hv
      simp only [exBarrier, singleComponents, farWorld, bind, Except.bind, hdd, hq, hv, pure, Except.pure]) rfl rfl (by intro h; cases h)
  refine ⟨_, farWorld b, fun _ => .ok (((exBarrier .BARRIER).net, 0), exRepeatNet), farCheck b, _, _, out, ⟨_, hr⟩, ⟨by decide, ?_⟩, exRepeat_text, rfl, fun _ => rfl,
    fun _ => farCheck_none, fun _ _ => farCheck_genuine, ?_, o1, o2, ?_, _, _, _, ⟨_, by simp [exRepeat, exConfigL], s2⟩,
    ⟨_, by simp [exRepeat, exConfigL], s1⟩, ⟨_, by simp [exRepeat, exConfigL], s3⟩, Real.log 4 / 3, fun t _ => Real.exp (3 * t) / 2, ?_, ?_, ?_, ?_, ?_⟩
  · intro k s hm
    simp only [exRepeat, exConfigL, List.mem_cons, Prod.mk.injEq, List.not_mem_nil, or_false] at hm
    rcases hm with ⟨-, rfl⟩ | ⟨-, rfl⟩ | ⟨-, rfl⟩
    exacts [⟨_, s1⟩, ⟨_, s2⟩, ⟨_, s3⟩]
  · intro st n k h
    cases h
    refine ⟨?_, rfl, (exBarrier_smooth .BARRIER).smooth⟩
    change closedLoop .dreal _ 1 _ = .ok (closedDyn _ _ _ _)
    rw [hdyn]
    exact exRepeat_closed
  · rw [o4]
    intro w hw r hr q hq
    simp only [exRepeatNet, List.mem_cons, List.not_mem_nil, or_false] at hw
    rcases hw with rfl | rfl <;> simp at hr <;> subst hr <;> simp at hq <;> subst hq <;> exact ⟨100000, by norm_num⟩
  · have := Real.log_pos (show (1:ℝ) < 4 by norm_num)
    positivity
  · rw [o4]
    intro t _
    refine hasDerivWithinAt_pi.2 fun i => ?_
    have hd : HasDerivAt (fun t : ℝ => Real.exp (3 * t) / 2) (Real.exp (3 * t) * (3 * 1) / 2) t :=
      (((hasDerivAt_id t).const_mul 3).exp).div_const 2
    refine HasDerivWithinAt.congr_deriv hd.hasDerivWithinAt ?_
    obtain rfl : i = 0 := Subsingleton.elim _ _
    simp [driven, controlValue, exRepeatField, exRepeatNet, Controller.forward, zipForward, linear, callAct, Act.forward, coordList, dotR]
    ring
  · intro i
    simp [entry]
    norm_num
  · intro t ht i
    have he : Real.exp (3 * t) ≤ 4 := by
      calc Real.exp (3 * t) ≤ Real.exp (Real.log 4) := Real.exp_le_exp.2 (by linarith [ht.2])
        _ = 4 := Real.exp_log (by norm_num)
    have hp := Real.exp_pos (3 * t)
    obtain rfl : i = 0 := Subsingleton.elim _ _
    simp [entry]
    constructor <;> linarith
  · intro i
    obtain rfl : i = 0 := Subsingleton.elim _ _
    have he : Real.exp (3 * (Real.log 4 / 3)) = 4 := by
      rw [mul_div_cancel₀ _ (by norm_num : (3:ℝ) ≠ 0), Real.exp_log (by norm_num)]
    simp [entry, he]
    norm_num

/-- **C59, controller shape.** CTRLAYER must list a hidden layer and then the outputs: an empty list is a TypeError (once the texts were read) and a single
number a NameError. -/
theorem C59_ctrlayer_needs_hidden_layer (w : ℕ → ℕ → ℕ → ℚ) (c : ControlConfig) (sys : List AExpr) (hs : readControlled c.base.lib c.base.system = .ok sys) :
    (c.ctrlayer = [] → readControl w c = .error .typeError) ∧ (∀ m, c.ctrlayer = [m] → readControl w c = .error .nameError) := by
  constructor
  · intro h
    simp only [readControl, hs, h, controllerOf, List.getLast?_nil, Bind.bind, Except.bind]
  · intro m h
    simp only [readControl, hs, h, Bind.bind, Except.bind]
    rw [C38_linear_controller_raises]

/-- **C59, controller outputs.** An accepted file asks for at least as many controller outputs (the last entry of CTRLAYER) as the system has inputs; with fewer
the closed loop cannot be built (IndexError). -/
theorem C59_enough_outputs (w : ℕ → ℕ → ℕ → ℚ) (c : ControlConfig) (r : ReadyControl) (h : readControl w c = .ok r) :
    ∃ m, c.ctrlayer.getLast? = some m ∧ (inputArgs r.sys).length ≤ m := by
  obtain ⟨-, -, hk, f, hf⟩ := readControl_inv h
  unfold controllerOf at hk
  cases hl : c.ctrlayer.getLast? with
  | none => rw [hl] at hk; cases hk
  | some m =>
    refine ⟨m, rfl, ?_⟩
    rw [hl] at hk
    dsimp only at hk
    have hlast : ∃ o, r.ctrl.layers.getLast? = some o ∧ o.length = m := by
      cases hd : c.ctrlayer.dropLast with
      | nil => rw [hd] at hk; cases hk
      | cons a as =>
        rw [hd] at hk
        simp only [newController] at hk
        have := Option.some.inj (Except.ok.inj hk)
        rw [← this]
        exact ⟨_, List.getLast?_concat, (initMat_shape w _ m _).1⟩
    obtain ⟨o, ho1, ho2⟩ := hlast
    simp only [closedLoop, closedSmt] at hf
    cases hu : r.ctrl.toSymbolic c.base.lib (vars c.base.nVars) with
    | error e => rw [hu] at hf; cases hf
    | ok u =>
      rw [hu] at hf
      dsimp only at hf
      have hlen : u.length = m := by
        simp only [Controller.toSymbolic] at hu
        split at hu
        · cases hu
        · rw [ho1] at hu
          dsimp only at hu
          obtain ⟨-, rfl⟩ := matVec_ok hu
          simp [round5, ho2]
      rw [← hlen]
      by_contra hlt
      split_ifs at hf
      · simp only [parsedOpenDreal] at hf
        split_ifs at hf
      · simp only [parsedOpen] at hf
        split_ifs at hf

end Fossil

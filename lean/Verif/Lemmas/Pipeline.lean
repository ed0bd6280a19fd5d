/-
Lemmas connecting the queries of a verification step with sets, certificate values and derivatives.
-/
import Verif.Spec.Dynamics
import Verif.Props.C17_Translator
import Verif.Props.C21_Domains
import Verif.Props.C23_Boundary

namespace Fossil
open Spec

theorem accepted_refutes {n : ℕ} {groups : List (Dict String Formula)} (hd : DistinctLabels groups)
    (h : Accepted n groups) : ∀ g ∈ groups, ∀ q ∈ g, ∀ ρ : Env, ¬ q.2.holds ρ := by
  cases h with
  | z3 noise o cex sound success => exact C01_success_means_no_violation n noise o sound groups hd cex success
  | dreal noise check cex sound below bounded boxes success =>
    exact C04_dreal_success_partial n noise check sound groups hd below bounded boxes cex success

theorem getE_ok {α : Type _} {d : Dict String α} {k : String} {a : α} :
    Dict.getE d k = .ok a ↔ Dict.get? d k = some a := by
  unfold Dict.getE
  cases Dict.get? d k <;> simp

theorem domainEntries_get {lib : Lib} {n : ℕ} {doms : Dict String PySet} {d : Dict String Formula}
    (h : domainEntries lib n doms = .ok d) (l : String) :
    match Dict.get? doms l with
    | none => Dict.get? d l = none
    | some S => ∃ φ, domainFormula lib n l S = .ok φ ∧ Dict.get? d l = some φ := by
  induction doms generalizing d with
  | nil => simp [domainEntries] at h; subst h; simp
  | cons e rest ih =>
    obtain ⟨l', S⟩ := e
    unfold domainEntries at h
    split at h
    · cases h
    rename_i φ hφ
    split at h
    · cases h
    rename_i d' hd'
    cases h
    have := ih hd'
    by_cases e : l' = l
    · subst e; simp [hφ]
    · simp only [Dict.get?_cons, e, if_false]; exact this

theorem domainEntries_ne {lib : Lib} {n : ℕ} {doms : Dict String PySet} {d : Dict String Formula}
    (h : domainEntries lib n doms = .ok d) {l : String} {φ : Formula} (hl : Dict.get? d l = some φ) :
    ∃ S, Dict.get? doms l = some S ∧ domainFormula lib n l S = .ok φ := by
  have := domainEntries_get h l
  cases hS : Dict.get? doms l with
  | none => rw [hS] at this; simp at this; rw [this] at hl; cases hl
  | some S =>
    rw [hS] at this
    obtain ⟨ψ, h1, h2⟩ := this
    rw [h2] at hl; cases hl
    exact ⟨S, rfl, h1⟩

theorem wf_of_get {n : ℕ} {doms : Dict String PySet} (h : WFDomains n doms) {l : String} {S : PySet}
    (hl : Dict.get? doms l = some S) : WF n S := h _ (Dict.get?_eq_some_mem hl)

/-- A non-border domain formula denotes the configured set. -/
theorem entry_region {lib : Lib} (hlib : lib = .z3 ∨ lib = .dreal) {n : ℕ} {doms : Dict String PySet}
    (hw : WFDomains n doms) {d : Dict String Formula} (h : domainEntries lib n doms = .ok d) {l : String}
    (hb : isBorder l = false) {φ : Formula} (hl : Dict.getE d l = .ok φ) (p : Pt n) :
    φ.holds p.env ↔ p ∈ region n doms l := by
  obtain ⟨S, hS, hφ⟩ := domainEntries_ne h (getE_ok.1 hl)
  simp only [domainFormula, hb] at hφ
  obtain ⟨ψ, h1, h2⟩ := C21_domain_formula_denotes_set lib n S (wf_of_get hw hS)
    (by rcases hlib with h | h <;> simp [h, supports])
  rw [show (S.generateDomain lib (vars n)) = .ok φ from by simpa using hφ] at h1
  cases h1
  rw [h2]; simp [region, hS]

/-- A border formula holds on the frontier of the configured set. -/
theorem entry_border {lib : Lib} (hlib : lib = .z3 ∨ lib = .dreal) {n : ℕ} {doms : Dict String PySet}
    (hw : WFDomains n doms) {d : Dict String Formula} (h : domainEntries lib n doms = .ok d) {l : String}
    (hb : isBorder l = true) {φ : Formula} (hl : Dict.getE d l = .ok φ)
    (hB : ∀ S, Dict.get? doms l = some S → BoundaryOK S) (p : Pt n)
    (hp : p ∈ frontier (region n doms l)) : φ.holds p.env := by
  obtain ⟨S, hS, hφ⟩ := domainEntries_ne h (getE_ok.1 hl)
  simp only [domainFormula, hb, if_true] at hφ
  obtain ⟨ψ, h1, h2⟩ := C23_boundary_formula_covers_frontier lib hlib n S (wf_of_get hw hS) (hB S hS)
  rw [hφ] at h1
  cases h1
  apply h2; simpa [region, hS] using hp

theorem initialise_single {lib n ct doms d} (h : initialiseDomains lib n ct doms = .ok d) (hc : ct ≠ .RAR) :
    domainEntries lib n doms = .ok d := by
  unfold initialiseDomains at h
  split at h
  · cases h
  rename_i d' hd'
  rw [if_neg hc] at h
  rw [hd', h]

theorem queriesCT_inv {s : Setup} {groups} (h : queriesCT s = .ok groups) :
    ∃ d V Vdot, initialiseDomains s.lib s.nVars s.cert s.domains = .ok d ∧
      translateCT s.lib s.rounding none s.quad s.net (vars s.nVars) s.f = .ok (V, Vdot) ∧
      singleConstraints s.cert s.nVars s.llo s.beta d V Vdot = .ok groups := by
  unfold queriesCT at h
  simp only [bind, Except.bind] at h
  split at h
  · cases h
  rename_i d hd
  split at h
  · cases h
  rename_i v hv
  exact ⟨d, v.1, v.2, hd, hv, h⟩

theorem queriesDT_inv {s : Setup} {groups} (h : queriesDT s = .ok groups) :
    ∃ d V Vdot, initialiseDomains s.lib s.nVars s.cert s.domains = .ok d ∧
      translateDT s.lib s.rounding s.quad s.net (vars s.nVars) s.f = .ok (V, Vdot) ∧
      singleConstraints s.cert s.nVars s.llo s.beta d V Vdot = .ok groups := by
  unfold queriesDT at h
  simp only [bind, Except.bind] at h
  split at h
  · cases h
  rename_i d hd
  split at h
  · cases h
  rename_i v hv
  exact ⟨d, v.1, v.2, hd, hv, h⟩

theorem certValue_eq {lib rnd quad} {net : Net} {n : ℕ} {f : List Term} {V Vdot : Term}
    (h : translateCT lib rnd none quad net (vars n) f = .ok (V, Vdot)) (p : Pt n) :
    V.eval p.env = certValue rnd quad net p := by
  obtain ⟨y, h1, h2⟩ := C17_formula_is_network lib rnd quad net n f V Vdot h p
  rw [h2, certValue, h1]

/-- Along a trajectory the certificate formula is differentiable with the Lie-derivative formula as rate. -/
theorem traj_deriv {lib rnd quad} {net : Net} {n : ℕ} {f : List Term} {V Vdot : Term}
    (h : translateCT lib rnd none quad net (vars n) f = .ok (V, Vdot)) (hn : net.inputSize = n)
    (hs : smoothActs net) {T : ℝ} {ξ : ℝ → Pt n} (hξ : Trajectory (field n f) T ξ) :
    ∀ t ∈ Set.Icc 0 T, HasDerivWithinAt (fun τ => certValue rnd quad net (ξ τ)) (Vdot.eval (ξ t).env)
      (Set.Icc 0 T) t := by
  intro t ht
  have := C17_lie_derivative_smooth lib rnd quad net n f V Vdot h hn hs (ξ t) ξ _ t rfl (hξ t ht)
  simpa only [certValue_eq h] using this

theorem traj_cont {n : ℕ} {F : Pt n → Pt n} {T : ℝ} {ξ : ℝ → Pt n} (h : Trajectory F T ξ) :
    ContinuousOn ξ (Set.Icc 0 T) := fun t ht => (h t ht).continuousWithinAt

/-- Coordinates of the origin formula. -/
theorem origin_holds {n : ℕ} (p : Pt n) :
    (Formula.conj ((vars n).map (fun x => .eq x (.const 0)))).holds p.env ↔ p = 0 := by
  simp only [Formula.holds_conj, vars, List.map_map, List.mem_map, List.mem_range, Function.comp]
  constructor
  · intro h
    funext i
    have := h _ ⟨i, i.2, rfl⟩
    simpa [Formula.holds, Term.eval] using this
  · rintro rfl _ ⟨i, hi, rfl⟩
    simp [Formula.holds, Term.eval, Pt.env]

end Fossil

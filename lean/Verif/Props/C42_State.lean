/-
C42: the label checks made before a run, and what passing them guarantees.
-/
import Verif.Cli
import Verif.LearnLoop
import Verif.Pipeline
import Mathlib.Tactic

namespace Fossil

namespace Spec

/-- The symbolic domains each certificate needs (documentation of the certificate classes). -/
def requiredDomains : CertType → Set String
  | .LYAPUNOV => {XD}
  | .ROA => {XI}
  | .BARRIER | .BARRIERALT | .STABLESAFE => {XD, XI, XU}
  | .RWS | .RWA => {XD, XI, XS, XSB, XG}
  | .RSWS | .RSWA => {XD, XI, XS, XSB, XG, XGB}
  | .RAR => {XD, XI, XS, XSB, XG, XF, XNF}
  | .CUSTOM => ∅

/-- The data sets each certificate needs. -/
def requiredData : CertType → Set String
  | .LYAPUNOV => {XD}
  | .ROA => {XD, XI}
  | .BARRIER | .BARRIERALT | .STABLESAFE => {XD, XI, XU}
  | .RWS | .RWA => {XD, XI, XU}
  | .RSWS | .RSWA => {XD, XI, XU, XS, XG, XGB}
  | .RAR => {XD, XI, XU, XG, XF, XNF}
  | .CUSTOM => ∅

/-- Exactly the labels of a set. -/
def LabelsAre (l : List String) (s : Set String) : Prop := ∀ x, x ∈ l ↔ x ∈ s

end Spec

open Spec

theorem setAssertion_ok {req act : List String} : setAssertion req act = .ok () ↔ ∀ x, x ∈ act ↔ x ∈ req := by
  unfold setAssertion
  have : (req.all (act.contains ·) && act.all (req.contains ·)) = true ↔ ∀ x, x ∈ act ↔ x ∈ req := by
    simp only [Bool.and_eq_true, List.all_eq_true, List.contains_iff_mem]
    exact ⟨fun h x => ⟨fun hx => h.2 x hx, fun hx => h.1 x hx⟩, fun h => ⟨fun x hx => (h x).2 hx, fun x hx => (h x).1 hx⟩⟩
  by_cases h : (req.all (act.contains ·) && act.all (req.contains ·)) = true
  · rw [if_pos h]; simpa using this.1 h
  · rw [if_neg h]; simpa using fun hh => h (this.2 hh)

theorem bind_unit_ok {x y : Except Err Unit} : (x.bind fun _ => y) = .ok () ↔ x = .ok () ∧ y = .ok () := by
  cases x with
  | error e => simp [Except.bind]
  | ok a => simp [Except.bind]

/-- **C42.** For every certificate type (other than user-defined ones) the check accepts exactly the documented domain labels together
with exactly the documented data labels (StableSafe: optionally an additional data set XR); any other combination raises ValueError. -/
theorem C42_assert_state_iff (ct : CertType) (hc : ct ≠ .CUSTOM) (doms data : List String) :
    (assertState ct doms data = .ok () ↔ LabelsAre doms (requiredDomains ct) ∧
      (LabelsAre data (requiredData ct) ∨ (ct = .STABLESAFE ∧ LabelsAre data {XD, XR, XI, XU}))) ∧
    (assertState ct doms data = .ok () ∨ assertState ct doms data = .error .valueError) := by
  have hsa : ∀ req act : List String, setAssertion req act = .ok () ∨ setAssertion req act = .error .valueError := by
    intro req act; unfold setAssertion; split <;> simp
  constructor
  · cases ct <;> first | exact absurd rfl hc | skip
    case STABLESAFE =>
      show (setAssertion [XD, XI, XU] doms).bind (fun _ => if data.contains XR = true then setAssertion [XD, XR, XI, XU] data
        else setAssertion [XD, XI, XU] data) = .ok () ↔ _
      rw [bind_unit_ok, setAssertion_ok]
      apply and_congr
      · simp [LabelsAre, requiredDomains]
      · by_cases h : data.contains XR = true
        · rw [if_pos h, setAssertion_ok]
          constructor
          · intro hh; right; exact ⟨rfl, by simpa [LabelsAre] using hh⟩
          · rintro (hh | ⟨-, hh⟩)
            · have := (hh XR).1 (List.contains_iff_mem.1 h)
              simp [requiredData, XR, XD, XI, XU] at this
            · simpa [LabelsAre] using hh
        · rw [if_neg h, setAssertion_ok]
          constructor
          · intro hh; left; simpa [LabelsAre, requiredData] using hh
          · rintro (hh | ⟨-, hh⟩)
            · simpa [LabelsAre, requiredData] using hh
            · exact absurd (List.contains_iff_mem.2 ((hh XR).2 (by simp))) h
    all_goals
      simp only [assertState, reduceCtorEq, false_and, or_false]
      refine bind_unit_ok.trans (and_congr ?_ ?_)
      · rw [setAssertion_ok]; simp [LabelsAre, requiredDomains]
      · rw [setAssertion_ok]; simp [LabelsAre, requiredData]
  · have hb : ∀ x y : Except Err Unit, (x = .ok () ∨ x = .error .valueError) → (y = .ok () ∨ y = .error .valueError) →
        ((x.bind fun _ => y) = .ok () ∨ (x.bind fun _ => y) = .error .valueError) := by
      rintro x y (rfl | rfl) hy
      · exact hy
      · right; rfl
    cases ct <;> first | exact absurd rfl hc | skip
    case STABLESAFE =>
      refine hb _ _ (hsa _ _) ?_
      split <;> exact hsa _ _
    all_goals exact hb _ _ (hsa _ _) (hsa _ _)

/-- **C42 (run).** The check of the whole configuration: positive learning rate and time limit, discrete time only with Lyapunov and
BarrierAlt, and the labels of the certificate. -/
theorem C42_cegis_state_iff (c : CheckCfg) (ct : CertType) (doms data : List String) :
    cegisAssertState c ct doms data = .ok () ↔ 0 < c.learningRate ∧ c.maxTimePositive = true ∧
      (c.discrete = true → ct = .LYAPUNOV ∨ ct = .BARRIERALT) ∧ assertState ct doms data = .ok () := by
  unfold cegisAssertState
  by_cases h1 : c.learningRate ≤ 0
  · rw [if_pos h1]; simp; intro h; linarith
  · rw [if_neg h1]
    push Not at h1
    cases h2 : c.maxTimePositive with
    | false => simp
    | true =>
      cases h3 : c.discrete with
      | false => simp [h1]
      | true =>
        by_cases h4 : ct = .LYAPUNOV ∨ ct = .BARRIERALT
        · have : (ct == .LYAPUNOV || ct == .BARRIERALT) = true := by simpa using h4
          simp [h1, this, h4]
        · have : (ct == .LYAPUNOV || ct == .BARRIERALT) = false := by
            simpa using h4
          simp [h1, this, h4]

theorem get_of_mem {α : Type _} {d : Dict String α} {k : String} (h : k ∈ d.keys) : ∃ a, Dict.getE d k = .ok a := by
  have := Dict.get?_isSome_iff.2 h
  unfold Dict.getE
  cases hk : Dict.get? d k with
  | none => rw [hk] at this; cases this
  | some a => exact ⟨a, rfl⟩

/-- **C42 (no later surprise, symbolic).** Once the check has passed, no certificate with one network fails for lack of a domain:
the constraints can be built from the domains whatever the network. -/
theorem C42_checked_single_constraints (ct : CertType) (hc : ct ≠ .CUSTOM) (hs : ct ≠ .STABLESAFE) (hr : ct ≠ .RAR)
    (d : Dict String Formula) (data : List String) (h : assertState ct d.keys data = .ok ())
    (n : ℕ) (llo : Bool) (beta : ℚ) (V Vdot : Term) : ∃ groups, singleConstraints ct n llo beta d V Vdot = .ok groups := by
  have hd := (((C42_assert_state_iff ct hc _ _).1.1 h).1)
  have g : ∀ k, k ∈ requiredDomains ct → ∃ a, Dict.getE d k = .ok a := fun k hk => get_of_mem ((hd k).2 hk)
  cases ct <;> first | exact absurd rfl hc | exact absurd rfl hs | exact absurd rfl hr | skip
  case LYAPUNOV =>
    obtain ⟨a, ha⟩ := g XD (by simp [requiredDomains])
    exact ⟨_, by simp [singleConstraints, lyapunovConstraints, ha, bind, Except.bind, pure, Except.pure]; rfl⟩
  case ROA =>
    obtain ⟨a, ha⟩ := g XI (by simp [requiredDomains])
    exact ⟨_, by simp [singleConstraints, roaConstraints, ha, bind, Except.bind, pure, Except.pure]; rfl⟩
  case BARRIER =>
    obtain ⟨a, ha⟩ := g XD (by simp [requiredDomains])
    obtain ⟨b, hb⟩ := g XI (by simp [requiredDomains])
    obtain ⟨c, hc'⟩ := g XU (by simp [requiredDomains])
    exact ⟨_, by simp [singleConstraints, barrierConstraints, ha, hb, hc', bind, Except.bind, pure, Except.pure]; rfl⟩
  case BARRIERALT =>
    obtain ⟨a, ha⟩ := g XD (by simp [requiredDomains])
    obtain ⟨b, hb⟩ := g XI (by simp [requiredDomains])
    obtain ⟨c, hc'⟩ := g XU (by simp [requiredDomains])
    exact ⟨_, by simp [singleConstraints, barrierAltConstraints, ha, hb, hc', bind, Except.bind, pure, Except.pure]; rfl⟩
  all_goals
    obtain ⟨a, ha⟩ := g XD (by simp [requiredDomains])
    obtain ⟨b, hb⟩ := g XI (by simp [requiredDomains])
    obtain ⟨c, hc'⟩ := g XS (by simp [requiredDomains])
    obtain ⟨e, he⟩ := g XSB (by simp [requiredDomains])
    obtain ⟨f, hf⟩ := g XG (by simp [requiredDomains])
    exact ⟨_, by simp [singleConstraints, rwsConstraints, ha, hb, hc', he, hf, bind, Except.bind, pure, Except.pure]; rfl⟩

/-- **C42 (no later surprise, two networks).** The same for StableSafe and ReachAvoidRemain. -/
theorem C42_checked_double_constraints (ct : CertType) (hc : ct = .STABLESAFE ∨ ct = .RAR)
    (d : Dict String Formula) (data : List String) (h : assertState ct d.keys data = .ok ())
    (n : ℕ) (llo : Bool) (beta : ℚ) (V Vdot B Bdot : Term) :
    (ct = .STABLESAFE → ∃ groups, safeRoaConstraints n llo beta d V Vdot B Bdot = .ok groups) ∧
    (ct = .RAR → ∃ groups, rarConstraints d V Vdot B Bdot = .ok groups) := by
  have hd := (((C42_assert_state_iff ct (by rintro rfl; simp at hc) _ _).1.1 h).1)
  have g : ∀ k, k ∈ requiredDomains ct → ∃ a, Dict.getE d k = .ok a := fun k hk => get_of_mem ((hd k).2 hk)
  constructor
  · rintro rfl
    obtain ⟨a, ha⟩ := g XD (by simp [requiredDomains])
    obtain ⟨b, hb⟩ := g XI (by simp [requiredDomains])
    obtain ⟨c, hc'⟩ := g XU (by simp [requiredDomains])
    simp [safeRoaConstraints, roaConstraints, barrierConstraints, ha, hb, hc', bind, Except.bind, pure, Except.pure]
  · rintro rfl
    obtain ⟨a, ha⟩ := g XD (by simp [requiredDomains])
    obtain ⟨b, hb⟩ := g XI (by simp [requiredDomains])
    obtain ⟨c, hc'⟩ := g XS (by simp [requiredDomains])
    obtain ⟨e, he⟩ := g XSB (by simp [requiredDomains])
    obtain ⟨f, hf⟩ := g XG (by simp [requiredDomains])
    obtain ⟨i, hi⟩ := g XF (by simp [requiredDomains])
    obtain ⟨j, hj⟩ := g XNF (by simp [requiredDomains])
    have k1 : goalFinalDomains d = .ok (Dict.set (Dict.set d XI f) XU j) := by
      simp [goalFinalDomains, hf, hj, bind, Except.bind, pure, Except.pure]
    have gE : ∀ k x, Dict.getE d k = .ok x → Dict.get? d k = some x := by
      intro k x hx; unfold Dict.getE at hx; cases hk : Dict.get? d k with
      | none => rw [hk] at hx; cases hx
      | some y => rw [hk] at hx; cases hx; rfl
    have k2 : Dict.getE (Dict.set (Dict.set d XI f) XU j) XD = .ok a := by
      simp [Dict.getE, Dict.get?_set, XD, XI, XU, show Dict.get? d "lie" = some a from gE XD a ha]
    have k3 : Dict.getE (Dict.set (Dict.set d XI f) XU j) XI = .ok f := by
      simp [Dict.getE, Dict.get?_set, XI, XU]
    have k4 : Dict.getE (Dict.set (Dict.set d XI f) XU j) XU = .ok j := by
      simp [Dict.getE, Dict.get?_set]
    simp only [rarConstraints, rwsConstraints, barrierConstraints, ha, hb, hc', he, hf, bind, Except.bind, pure, Except.pure, k1, k2, k3, k4]
    exact ⟨_, rfl⟩

/-- Non-vacuity: labels accepted for each of two certificates, in any order. -/
example : assertState .RAR [XNF, XF, XG, XSB, XS, XI, XD] [XNF, XF, XG, XU, XI, XD] = .ok () := by decide
example : assertState .STABLESAFE [XU, XI, XD] [XD, XI, XU, XR] = .ok () := by decide
/-- Superfluous labels are rejected. -/
example : assertState .ROA [XI, XD] [XD, XI] = .error .valueError := by decide

end Fossil

/-
The certificate function of a network without ReLU units is continuously differentiable, hence its derivative along a
continuous vector field is continuous.
-/
import Verif.Lemmas.Continuity
import Mathlib.Analysis.SpecialFunctions.ExpDeriv
import Mathlib.Analysis.SpecialFunctions.Log.Deriv
import Mathlib.Analysis.Calculus.ContDiff.FiniteDimension

namespace Fossil
open Spec

/-- A list-valued function of constant length with continuously differentiable entries. -/
def DiffList {X : Type _} [NormedAddCommGroup X] [NormedSpace ℝ X] (u : X → List ℝ) : Prop :=
  ∃ m, (∀ x, (u x).length = m) ∧ ∀ i, ContDiff ℝ 1 (fun x => (u x).getD i 0)

section
variable {X : Type _} [NormedAddCommGroup X] [NormedSpace ℝ X]

theorem DiffList.dot {u : X → List ℝ} (hu : DiffList u) (r : List ℚ) : ContDiff ℝ 1 (fun x => dotR r (u x)) := by
  obtain ⟨m, hm, hc⟩ := hu
  have key : ∀ (r : List ℚ) (l : List ℝ), dotR r l
      = ∑ i ∈ Finset.range r.length, if i < l.length then ((r.getD i 0 : ℚ) : ℝ) * l.getD i 0 else 0 := by
    intro r
    induction r with
    | nil => intro l; simp [dotR]
    | cons c r ih =>
      intro l
      cases l with
      | nil => simp [dotR]
      | cons t l =>
        have h1 : dotR (c :: r) (t :: l) = (c : ℝ) * t + dotR r l := by simp [dotR]
        rw [h1, ih, List.length_cons, Finset.sum_range_succ']
        simp [add_comm]
  have : (fun x => dotR r (u x)) = fun x => ∑ i ∈ Finset.range r.length,
      if i < m then ((r.getD i 0 : ℚ) : ℝ) * (u x).getD i 0 else 0 := by
    funext x; rw [key, hm]
  rw [this]
  refine ContDiff.sum fun i _ => ?_
  split
  · exact contDiff_const.mul (hc i)
  · exact contDiff_const

theorem DiffList.layer {u : X → List ℝ} (hu : DiffList u) (l : Layer) : DiffList (fun x => l.apply (u x)) := by
  unfold Layer.apply
  cases l.bias with
  | none =>
    refine ⟨l.weight.length, by simp, fun i => ?_⟩
    by_cases h : i < l.weight.length
    · simpa [List.getD_eq_getElem?_getD, h] using hu.dot l.weight[i]
    · simp only [List.getD_eq_getElem?_getD, List.getElem?_map, List.getElem?_eq_none (not_lt.1 h)]
      exact contDiff_const
  | some b =>
    refine ⟨min l.weight.length b.length, by simp, fun i => ?_⟩
    by_cases h : i < l.weight.length ∧ i < b.length
    · have : (fun x => (List.zipWith (fun (r : List ℚ) (c : ℚ) => dotR r (u x) + (c : ℝ)) l.weight b).getD i 0)
          = fun x => dotR (l.weight[i]'h.1) (u x) + ((b[i]'h.2 : ℚ) : ℝ) := by
        funext x
        rw [List.getD_eq_getElem?_getD, List.getElem?_eq_getElem (by simp [h.1, h.2])]
        simp
      rw [this]
      exact (hu.dot _).add contDiff_const
    · have : (fun x => (List.zipWith (fun (r : List ℚ) (c : ℚ) => dotR r (u x) + (c : ℝ)) l.weight b).getD i 0)
          = fun _ => 0 := by
        funext x
        rw [List.getD_eq_getElem?_getD, List.getElem?_eq_none (by simp; omega)]
        rfl
      rw [this]
      exact contDiff_const

theorem Act.scal_contDiff (a : Act) (ha : a ≠ .relu) (len i : ℕ) : ContDiff ℝ 1 (a.scal len i) := by
  have hexp : ∀ t : ℝ, 1 + Real.exp t ≠ 0 := fun t => by positivity
  have hlog : ContDiff ℝ 1 (fun t : ℝ => Real.log (1 + Real.exp t)) :=
    ContDiff.log (contDiff_const.add Real.contDiff_exp) hexp
  have htanh : ContDiff ℝ 1 Real.tanh := by
    have : Real.tanh = fun t => Real.sinh t / Real.cosh t := funext Real.tanh_eq_sinh_div_cosh
    rw [this]
    exact Real.contDiff_sinh.div Real.contDiff_cosh fun t => (Real.cosh_pos t).ne'
  cases a <;> simp only [Act.scal]
  case identity => exact contDiff_id
  case relu => exact absurd rfl ha
  case square => exact contDiff_id.pow 2
  case poly2 => split <;> first | exact contDiff_id | exact contDiff_id.pow 2
  case tanh => exact htanh
  case tanhSquared => exact htanh.pow 2
  case sigmoid =>
    exact contDiff_const.div (contDiff_const.add (Real.contDiff_exp.comp contDiff_neg)) fun t => hexp (-t)
  case softplus => exact hlog
  case shiftedSoftplus => exact hlog.sub contDiff_const
  case shiftedSoftplusSquare => exact (hlog.sub contDiff_const).pow 2
  case cosh => exact Real.contDiff_cosh.sub contDiff_const
  case polyN n => exact contDiff_id.pow _
  case evenPolyN n => exact contDiff_id.pow _

theorem DiffList.act {u : X → List ℝ} (hu : DiffList u) (a : Act) (ha : a ≠ .relu) :
    DiffList (fun x => a.forward (u x)) := by
  obtain ⟨m, hm, hc⟩ := hu
  refine ⟨m, fun x => by dsimp only; rw [Act.forward_eq]; simp [hm], fun i => ?_⟩
  by_cases h : i < m
  · have : (fun x => (a.forward (u x)).getD i 0) = fun x => a.scal m i ((u x).getD i 0) := by
      funext x
      have h' : i < (u x).length := by rw [hm]; exact h
      rw [Act.forward_eq, hm]
      simp [List.getD_eq_getElem?_getD, h']
    rw [this]
    exact (a.scal_contDiff ha m i).comp (hc i)
  · have : (fun x => (a.forward (u x)).getD i 0) = fun _ => 0 := by
      funext x
      rw [Act.forward_eq, List.getD_eq_getElem?_getD, List.getElem?_eq_none (by simp [hm]; omega)]
      rfl
    rw [this]; exact contDiff_const

theorem hiddenForward_diff (ls : List Layer) : ∀ (as : List Act), (∀ a ∈ as, a ≠ .relu) → ∀ {u : X → List ℝ}, DiffList u →
    (∃ e, ∀ x, hiddenForward ls as (u x) = .error e) ∨
    ∃ w : X → List ℝ, DiffList w ∧ ∀ x, hiddenForward ls as (u x) = .ok (w x) := by
  induction ls with
  | nil => intro as _ u hu; exact Or.inr ⟨u, hu, fun x => by cases as <;> rfl⟩
  | cons l ls ih =>
    intro as has u hu
    cases as with
    | nil => exact Or.inl ⟨_, fun x => rfl⟩
    | cons a as => exact ih as (fun b hb => has b (by simp [hb])) ((hu.layer l).act a (has a (by simp)))
end

theorem coordList_diff {n : ℕ} : DiffList (fun p : Pt n => coordList p) := by
  refine ⟨n, by simp [coordList], fun i => ?_⟩
  by_cases h : i < n
  · have : (fun p : Pt n => (coordList p).getD i 0) = fun p => p ⟨i, h⟩ := by
      funext p; simp [coordList, List.getD_eq_getElem?_getD, h]
    rw [this]; exact contDiff_apply ℝ ℝ _
  · have : (fun p : Pt n => (coordList p).getD i 0) = fun _ => 0 := by
      funext p; simp [coordList, List.getD_eq_getElem?_getD, h]
    rw [this]; exact contDiff_const

/-- The certificate function of a network without ReLU units is continuously differentiable. -/
theorem contDiff_certValue (n : ℕ) (rnd : ℤ) (quad : Bool) (net : Net) (hs : smoothActs net) :
    ContDiff ℝ 1 (certValue rnd quad net : Pt n → ℝ) := by
  unfold certValue
  refine ContDiff.mul ?_ ?_
  · unfold Net.forward
    cases (roundedNet rnd net).layers.getLast? with
    | none => exact contDiff_const
    | some last =>
      rcases hiddenForward_diff (roundedNet rnd net).layers.dropLast (roundedNet rnd net).acts hs
        (coordList_diff (n := n)) with ⟨e, he⟩ | ⟨w, hw, he⟩
      · simp only [he, bind, Except.bind]; exact contDiff_const
      · simp only [he, bind, Except.bind]
        obtain ⟨m, hm, hc⟩ := hw.layer last
        dsimp only at hm hc
        by_cases h : 0 < m
        · refine (congrArg (ContDiff ℝ 1) (funext fun p => ?_)).mp (hc 0)
          have := hm p
          cases hl : last.apply (w p) with
          | nil => rw [hl] at this; simp at this; omega
          | cons a l => simp [at?]
        · refine (congrArg (ContDiff ℝ 1) (funext fun p => ?_)).mp (contDiff_const (c := (0:ℝ)))
          have := hm p
          cases hl : last.apply (w p) with
          | nil => simp [at?]
          | cons a l => rw [hl] at this; simp at this; omega
  · cases quad
    · exact contDiff_const
    · simp only [if_true]; unfold normSq
      exact ContDiff.sum fun i _ => (contDiff_apply ℝ ℝ i).pow 2

/-- A Lie derivative of a continuously differentiable function along a continuous field is continuous. -/
theorem lie_continuous {n : ℕ} {F : Pt n → Pt n} {V L : Pt n → ℝ} (hV : ContDiff ℝ 1 V) (hF : Continuous F)
    (hL : ∀ p, IsLieDerivAt F V L p) : Continuous L := by
  have e : L = fun p => fderiv ℝ V p (F p) := by
    funext p
    have hγ : HasDerivAt (fun t : ℝ => p + t • F p) (F p) 0 := by
      simpa using ((hasDerivAt_id (0:ℝ)).smul_const (F p)).const_add p
    have h1 := hL p (fun t => p + t • F p) Set.univ 0 (by simp) hγ.hasDerivWithinAt
    rw [hasDerivWithinAt_univ] at h1
    have hd : HasFDerivAt V (fderiv ℝ V p) ((fun t : ℝ => p + t • F p) 0) := by
      simpa using ((hV.differentiable (by norm_num)) p).hasFDerivAt
    have h2 := hd.comp_hasDerivAt (0:ℝ) hγ
    exact h1.unique h2
  rw [e]
  exact (hV.continuous_fderiv (by norm_num)).clm_apply hF

end Fossil

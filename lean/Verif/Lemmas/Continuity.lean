/-
Continuity of the certificate function (any depth, any activation, ReLU included).
-/
import Verif.Spec.Dynamics
import Verif.Lemmas.Act
import Mathlib.Analysis.SpecialFunctions.Pow.Continuity

namespace Fossil
open Spec

/-- A list-valued function of constant length with continuous entries. -/
def ContList {X : Type _} [TopologicalSpace X] (u : X → List ℝ) : Prop :=
  ∃ m, (∀ x, (u x).length = m) ∧ ∀ i, Continuous (fun x => (u x).getD i 0)

section
variable {X : Type _} [TopologicalSpace X]

theorem ContList.dot {u : X → List ℝ} (hu : ContList u) (r : List ℚ) : Continuous (fun x => dotR r (u x)) := by
  obtain ⟨m, hm, hc⟩ := hu
  have key : ∀ (r : List ℚ) (l : List ℝ), dotR r l
      = ∑ i ∈ Finset.range r.length, if i < l.length then ((r.getD i 0 : ℚ) : ℝ) * l.getD i 0 else 0 := by
    intro r
    induction r with
    | nil => intro l; simp [dotR]
    | cons c r ih =>
      intro l
      cases l with
      | nil => simp [dotR]
      | cons t l =>
        have h1 : dotR (c :: r) (t :: l) = (c : ℝ) * t + dotR r l := by simp [dotR]
        rw [h1, ih, List.length_cons, Finset.sum_range_succ']
        simp [add_comm]
  have : (fun x => dotR r (u x)) = fun x => ∑ i ∈ Finset.range r.length,
      if i < m then ((r.getD i 0 : ℚ) : ℝ) * (u x).getD i 0 else 0 := by
    funext x; rw [key, hm]
  rw [this]
  refine continuous_finsetSum _ fun i _ => ?_
  split
  · exact continuous_const.mul (hc i)
  · exact continuous_const

theorem ContList.layer {u : X → List ℝ} (hu : ContList u) (l : Layer) : ContList (fun x => l.apply (u x)) := by
  unfold Layer.apply
  cases l.bias with
  | none =>
    refine ⟨l.weight.length, by simp, fun i => ?_⟩
    by_cases h : i < l.weight.length
    · simpa [List.getD_eq_getElem?_getD, h] using hu.dot l.weight[i]
    · simp only [List.getD_eq_getElem?_getD, List.getElem?_map, List.getElem?_eq_none (not_lt.1 h)]
      exact continuous_const
  | some b =>
    refine ⟨min l.weight.length b.length, by simp, fun i => ?_⟩
    by_cases h : i < l.weight.length ∧ i < b.length
    · have : (fun x => (List.zipWith (fun (r : List ℚ) (c : ℚ) => dotR r (u x) + (c : ℝ)) l.weight b).getD i 0)
          = fun x => dotR (l.weight[i]'h.1) (u x) + ((b[i]'h.2 : ℚ) : ℝ) := by
        funext x
        rw [List.getD_eq_getElem?_getD, List.getElem?_eq_getElem (by simp [h.1, h.2])]
        simp
      rw [this]
      exact (hu.dot _).add continuous_const
    · have : (fun x => (List.zipWith (fun (r : List ℚ) (c : ℚ) => dotR r (u x) + (c : ℝ)) l.weight b).getD i 0)
          = fun _ => 0 := by
        funext x
        rw [List.getD_eq_getElem?_getD, List.getElem?_eq_none (by simp; omega)]
        rfl
      rw [this]
      exact continuous_const

theorem Act.scal_continuous (a : Act) (len i : ℕ) : Continuous (a.scal len i) := by
  have hexp : ∀ t : ℝ, 1 + Real.exp t ≠ 0 := fun t => by positivity
  have hlog : Continuous (fun t : ℝ => Real.log (1 + Real.exp t)) :=
    Continuous.log (by fun_prop) hexp
  have htanh : Continuous Real.tanh := by
    have : Real.tanh = fun t => Real.sinh t / Real.cosh t := funext Real.tanh_eq_sinh_div_cosh
    rw [this]
    exact Real.continuous_sinh.div Real.continuous_cosh fun t => (Real.cosh_pos t).ne'
  cases a <;> simp only [Act.scal]
  case identity => exact continuous_id
  case relu => fun_prop
  case square => fun_prop
  case poly2 => split <;> fun_prop
  case tanh => exact htanh
  case tanhSquared => exact htanh.pow 2
  case sigmoid => exact continuous_const.div (by fun_prop) fun t => by positivity
  case softplus => exact hlog
  case shiftedSoftplus => exact hlog.sub continuous_const
  case shiftedSoftplusSquare => exact (hlog.sub continuous_const).pow 2
  case cosh => exact Real.continuous_cosh.sub continuous_const
  case polyN n => fun_prop
  case evenPolyN n => fun_prop

theorem ContList.act {u : X → List ℝ} (hu : ContList u) (a : Act) : ContList (fun x => a.forward (u x)) := by
  obtain ⟨m, hm, hc⟩ := hu
  refine ⟨m, fun x => by dsimp only; rw [Act.forward_eq]; simp [hm], fun i => ?_⟩
  by_cases h : i < m
  · have : (fun x => (a.forward (u x)).getD i 0) = fun x => a.scal m i ((u x).getD i 0) := by
      funext x
      have h' : i < (u x).length := by rw [hm]; exact h
      rw [Act.forward_eq, hm]
      simp [List.getD_eq_getElem?_getD, h']
    rw [this]
    exact (a.scal_continuous m i).comp (hc i)
  · have : (fun x => (a.forward (u x)).getD i 0) = fun _ => 0 := by
      funext x
      rw [Act.forward_eq, List.getD_eq_getElem?_getD, List.getElem?_eq_none (by simp [hm]; omega)]
      rfl
    rw [this]; exact continuous_const

theorem hiddenForward_cont (ls : List Layer) : ∀ (as : List Act) {u : X → List ℝ}, ContList u →
    (∃ e, ∀ x, hiddenForward ls as (u x) = .error e) ∨
    ∃ w : X → List ℝ, ContList w ∧ ∀ x, hiddenForward ls as (u x) = .ok (w x) := by
  induction ls with
  | nil => intro as u hu; exact Or.inr ⟨u, hu, fun x => by cases as <;> rfl⟩
  | cons l ls ih =>
    intro as u hu
    cases as with
    | nil => exact Or.inl ⟨_, fun x => rfl⟩
    | cons a as => exact ih as ((hu.layer l).act a)

theorem coordList_cont {n : ℕ} : ContList (fun p : Pt n => coordList p) := by
  refine ⟨n, by simp [coordList], fun i => ?_⟩
  by_cases h : i < n
  · have : (fun p : Pt n => (coordList p).getD i 0) = fun p => p ⟨i, h⟩ := by
      funext p; simp [coordList, List.getD_eq_getElem?_getD, h]
    rw [this]; exact continuous_apply _
  · have : (fun p : Pt n => (coordList p).getD i 0) = fun _ => 0 := by
      funext p; simp [coordList, List.getD_eq_getElem?_getD, h]
    rw [this]; exact continuous_const

/-- The certificate function is continuous, whatever the network. -/
theorem continuous_certValue (n : ℕ) (rnd : ℤ) (quad : Bool) (net : Net) :
    Continuous (certValue rnd quad net : Pt n → ℝ) := by
  unfold certValue
  refine Continuous.mul ?_ ?_
  · unfold Net.forward
    cases (roundedNet rnd net).layers.getLast? with
    | none => exact continuous_const
    | some last =>
      rcases hiddenForward_cont (roundedNet rnd net).layers.dropLast (roundedNet rnd net).acts
        (coordList_cont (n := n)) with ⟨e, he⟩ | ⟨w, hw, he⟩
      · simp only [he, bind, Except.bind]; exact continuous_const
      · simp only [he, bind, Except.bind]
        obtain ⟨m, hm, hc⟩ := hw.layer last
        dsimp only at hm hc
        by_cases h : 0 < m
        · refine (hc 0).congr fun p => ?_
          have := hm p
          cases hl : last.apply (w p) with
          | nil => rw [hl] at this; simp at this; omega
          | cons a l => simp [at?]
        · refine (continuous_const (y := (0:ℝ))).congr fun p => ?_
          have := hm p
          cases hl : last.apply (w p) with
          | nil => simp [at?]
          | cons a l => rw [hl] at this; simp at this; omega
  · cases quad
    · exact continuous_const
    · simp only [if_true]; unfold normSq; fun_prop
end

end Fossil

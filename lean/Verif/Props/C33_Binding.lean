/- C33: variables of parsed systems are bound by index. -/
import Verif.ParsedModel
import Mathlib.Data.List.Sort
import Mathlib.Tactic

namespace Fossil

/-! ### string order of the names -/

theorem lexLe_refl (l : List ℕ) : lexLe l l = true := by
  induction l with
  | nil => rfl
  | cons a l ih => simp [lexLe, ih]

theorem lexLe_total (a b : List ℕ) : (lexLe a b || lexLe b a) = true := by
  induction a generalizing b with
  | nil => cases b <;> simp [lexLe]
  | cons x a ih =>
    cases b with
    | nil => simp [lexLe]
    | cons y b =>
      simp only [lexLe]
      rcases lt_trichotomy x y with h | h | h
      · simp [h]
      · subst h; simpa using ih b
      · simp [h, Nat.lt_asymm h]

theorem lexLe_trans (a b c : List ℕ) (h1 : lexLe a b = true) (h2 : lexLe b c = true) : lexLe a c = true := by
  induction a generalizing b c with
  | nil => cases c <;> rfl
  | cons x a ih =>
    cases b with
    | nil => simp [lexLe] at h1
    | cons y b =>
      cases c with
      | nil => simp [lexLe] at h2
      | cons z c =>
        simp only [lexLe] at h1 h2 ⊢
        split_ifs at h1 h2 ⊢ <;> first | rfl | omega | exact ih b c h1 h2

theorem lexLe_antisymm (a b : List ℕ) (h1 : lexLe a b = true) (h2 : lexLe b a = true) : a = b := by
  induction a generalizing b with
  | nil => cases b with
    | nil => rfl
    | cons => simp [lexLe] at h2
  | cons x a ih =>
    cases b with
    | nil => simp [lexLe] at h1
    | cons y b =>
      simp only [lexLe] at h1 h2
      split_ifs at h1 h2
      · omega
      · have : x = y := by omega
        rw [this, ih b h1 h2]

theorem decDigits_inj {i j : ℕ} (h : decDigits i = decDigits j) : i = j := by
  have key : ∀ i, Nat.ofDigits 10 (decDigits i).reverse = i := by
    intro i
    unfold decDigits
    split_ifs with h
    · simp [h]
    · rw [List.reverse_reverse, Nat.ofDigits_digits]
  rw [← key i, h, key]

theorem decDigits_small {i : ℕ} (h : i < 10) : decDigits i = [i] := by
  interval_cases i <;> simp [decDigits]

theorem decDigits_cons {i : ℕ} (h : 0 < i) : ∃ d ds, decDigits i = d :: ds ∧ 0 < d := by
  have hne : Nat.digits 10 i ≠ [] := Nat.digits_ne_nil_iff_ne_zero.2 (by omega)
  have hl := Nat.getLast_digit_ne_zero 10 (m := i) (by omega)
  have : decDigits i = (Nat.digits 10 i).reverse := by simp [decDigits, Nat.pos_iff_ne_zero.1 h]
  rw [this]
  have h2 : (Nat.digits 10 i).reverse ≠ [] := by simpa using hne
  obtain ⟨d, ds, hd⟩ := List.exists_cons_of_ne_nil h2
  refine ⟨d, ds, hd, ?_⟩
  have h3 : (Nat.digits 10 i).reverse.head h2 = (Nat.digits 10 i).getLast hne := List.head_reverse h2
  have h4 : (Nat.digits 10 i).reverse.head h2 = d := by simp [hd]
  omega

/-! ### the order of arguments -/

theorem sortByName_perm (l : List ℕ) : (sortByName l).Perm l := List.mergeSort_perm _ _

theorem sortByName_sorted (l : List ℕ) :
    (sortByName l).Pairwise (fun i j => lexLe (decDigits i) (decDigits j) = true) :=
  List.pairwise_mergeSort (le := fun i j => lexLe (decDigits i) (decDigits j))
    (fun a b c => lexLe_trans (decDigits a) (decDigits b) (decDigits c)) (fun a b => lexLe_total (decDigits a) (decDigits b)) l

theorem sortByName_small {l : List ℕ} {n : ℕ} (h : l.Perm (List.range n)) (hn : n ≤ 10) :
    sortByName l = List.range n := by
  refine List.Perm.eq_of_pairwise (fun a b _ _ h1 h2 => decDigits_inj (lexLe_antisymm _ _ h1 h2)) (sortByName_sorted l) ?_
    ((sortByName_perm l).trans h)
  refine List.Pairwise.imp_of_mem ?_ List.pairwise_lt_range
  intro a b ha hb hab
  rw [List.mem_range] at ha hb
  rw [decDigits_small (by omega), decDigits_small (by omega)]
  simp [lexLe, hab]

theorem lexLe_zero_first (i : ℕ) : lexLe (decDigits 0) (decDigits i) = true := by
  rcases Nat.eq_zero_or_pos i with rfl | h
  · exact lexLe_refl _
  · obtain ⟨d, ds, hd, hpos⟩ := decDigits_cons h
    rw [hd, decDigits_small (by omega)]
    simp [lexLe, hpos]

theorem lexLe_one_next (i : ℕ) (h : 0 < i) : lexLe (decDigits 1) (decDigits i) = true := by
  obtain ⟨d, ds, hd, hpos⟩ := decDigits_cons h
  rw [hd, decDigits_small (by omega)]
  simp only [lexLe]
  split_ifs <;> first | rfl | omega

theorem lexLe_ten_next (i : ℕ) (h : 1 < i) : lexLe (decDigits 10) (decDigits i) = true := by
  obtain ⟨d, ds, hd, hpos⟩ := decDigits_cons (by omega : 0 < i)
  have h10 : decDigits 10 = [1, 0] := by simp [decDigits]
  rw [hd, h10]
  simp only [lexLe]
  split_ifs with h1 h2
  · rfl
  · omega
  · have hd1 : d = 1 := by omega
    cases ds with
    | nil =>
      have : i = 1 := decDigits_inj (by rw [hd, hd1, decDigits_small (by omega)])
      omega
    | cons d' ds' =>
      simp only [lexLe]
      split_ifs <;> first | rfl | omega

/-- From eleven variables on, the third argument is `x10`. -/
theorem sortByName_large {l : List ℕ} {n : ℕ} (h : l.Perm (List.range n)) (hn : 11 ≤ n) :
    ∃ r, sortByName l = 0 :: 1 :: 10 :: r := by
  have hp := (sortByName_perm l).trans h
  have hs := sortByName_sorted l
  have hnd : (sortByName l).Nodup := hp.nodup_iff.2 List.nodup_range
  have hmem : ∀ i < n, i ∈ sortByName l := fun i hi => hp.mem_iff.2 (List.mem_range.2 hi)
  -- the first element of a sorted list that contains a least element `m`
  have first : ∀ (s : List ℕ) (m : ℕ), s.Pairwise (fun i j => lexLe (decDigits i) (decDigits j) = true) → m ∈ s →
      (∀ i ∈ s, lexLe (decDigits m) (decDigits i) = true) → ∃ r, s = m :: r := by
    intro s m hs hm hmin
    cases s with
    | nil => simp at hm
    | cons a r =>
      refine ⟨r, ?_⟩
      rcases List.mem_cons.1 hm with rfl | hmr
      · rfl
      · rw [decDigits_inj (lexLe_antisymm _ _ ((List.pairwise_cons.1 hs).1 m hmr) (hmin a (by simp)))]
  obtain ⟨r0, h0⟩ := first _ 0 hs (hmem 0 (by omega)) (fun i _ => lexLe_zero_first i)
  rw [h0] at hs hnd hmem
  have hn0 := List.nodup_cons.1 hnd
  have hs0 := (List.pairwise_cons.1 hs).2
  obtain ⟨r1, h1⟩ := first r0 1 hs0 (by simpa using hmem 1 (by omega)) (fun i hi => lexLe_one_next i (by
    rcases Nat.eq_zero_or_pos i with rfl | h
    · exact absurd hi hn0.1
    · exact h))
  subst h1
  have hn1 := List.nodup_cons.1 hn0.2
  have hs1 := (List.pairwise_cons.1 hs0).2
  obtain ⟨r2, h2⟩ := first r1 10 hs1 (by simpa using hmem 10 (by omega)) (fun i hi => lexLe_ten_next i (by
    have h0 : i ≠ 0 := by rintro rfl; exact hn0.1 (by simp [hi])
    have h1 : i ≠ 1 := by rintro rfl; exact hn1.1 hi
    omega))
  exact ⟨r2, by rw [h0, h2]⟩

/-- The system mentions exactly the state variables `x0 ... x(n-1)`. -/
def Mentions (sys : List AExpr) (n : ℕ) : Prop := ∀ i, i ∈ sys.flatMap AExpr.xs ↔ i < n

theorem Mentions.perm {sys : List AExpr} {n : ℕ} (h : Mentions sys n) :
    (sys.flatMap AExpr.xs).dedup.Perm (List.range n) := by
  rw [List.perm_ext_iff_of_nodup (List.nodup_dedup _) List.nodup_range]
  intro i
  rw [List.mem_dedup, h i, List.mem_range]

/-- A state given as a list, read by variable index. -/
def stateEnv (p : List ℝ) : ℕ → ℝ := fun i => p.getD i 0

theorem AExpr.eval_congr {e : AExpr} {ρ ρ' μ μ' : ℕ → ℝ} (hx : ∀ i ∈ e.xs, ρ i = ρ' i) (hu : ∀ i ∈ e.us, μ i = μ' i) :
    e.eval ρ μ = e.eval ρ' μ' := by
  induction e with
  | num => rfl
  | x i => exact hx i (by simp [AExpr.xs])
  | u i => exact hu i (by simp [AExpr.us])
  | add a b iha ihb | sub a b iha ihb | mul a b iha ihb | div a b iha ihb | pow a b iha ihb =>
    simp only [AExpr.xs, AExpr.us, List.mem_append] at hx hu
    simp only [AExpr.eval, iha (fun i h => hx i (Or.inl h)) (fun i h => hu i (Or.inl h)),
      ihb (fun i h => hx i (Or.inr h)) (fun i h => hu i (Or.inr h))]
  | neg a ih | app f a ih => simp only [AExpr.eval, ih hx hu]

theorem idxOf_range {n i : ℕ} (h : i < n) : (List.range n).idxOf i = i := by
  have := List.nodup_range (n := n) |>.idxOf_getElem i (by simpa using h)
  simpa using this

/-- Every right-hand side mentions a variable. -/
def NoConstants (sys : List AExpr) : Prop := ∀ e ∈ sys, e.xs ≠ [] ∨ e.us ≠ []

theorem number_vars {e : AExpr} (h : e.number = true) : e.xs = [] ∧ e.us = [] := by
  induction e with
  | num => exact ⟨rfl, rfl⟩
  | x | u | app => simp [AExpr.number] at h
  | neg a ih => exact ih h
  | add a b iha ihb | sub a b iha ihb | mul a b iha ihb | div a b iha ihb | pow a b iha ihb =>
    simp only [AExpr.number, Bool.and_eq_true] at h
    simp [AExpr.xs, AExpr.us, iha h.1, ihb h.2]

theorem numericOk_iff (sys : List AExpr) : numericOk sys = .ok () ↔ NoConstants sys := by
  unfold numericOk NoConstants
  split_ifs with h1 h2
  · simp only [reduceCtorEq, false_iff]
    intro h
    obtain ⟨e, he, hn⟩ := List.any_eq_true.1 h1
    obtain ⟨k1, k2⟩ := number_vars hn
    exact (h e he).elim (fun k => k k1) (fun k => k k2)
  · simp only [reduceCtorEq, false_iff]
    intro h
    obtain ⟨e, he, hn⟩ := List.any_eq_true.1 h2
    simp only [Bool.and_eq_true, List.isEmpty_iff] at hn
    exact (h e he).elim (fun k => k hn.1) (fun k => k hn.2)
  · simp only [true_iff]
    intro e he
    by_contra hc
    push Not at hc
    exact h2 (List.any_eq_true.2 ⟨e, he, by simp [hc]⟩)

/-- **C33.** A system in which some right-hand side mentions no variable (such as a clock, `x' = 1`) cannot be evaluated numerically, so no run is possible
from a configuration file. -/
theorem C33_constant_component_rejected (sys : List AExpr) (e : AExpr) (he : e ∈ sys) (hx : e.xs = []) (hu : e.us = []) (p u : List ℝ) :
    (∃ err, parsedTorch sys p = .error err) ∧ ∃ err, parsedTorchU sys p u = .error err := by
  have : ∃ err, numericOk sys = .error err := by
    cases h : numericOk sys with
    | error err => exact ⟨err, rfl⟩
    | ok _ => exact ((numericOk_iff sys).1 h e he).elim (fun k => absurd hx k) (fun k => absurd hu k)
  obtain ⟨err, h⟩ := this
  exact ⟨⟨err, by simp [parsedTorch, h, Bind.bind, Except.bind]⟩, ⟨err, by simp [parsedTorchU, h, Bind.bind, Except.bind]⟩⟩

example : ∃ err, parsedTorch [.x 1, .num 1] [0, 0] = .error err :=
  (C33_constant_component_rejected [.x 1, .num 1] (.num 1) (by simp) rfl rfl [0, 0] []).1

/-- **C33 (partial), numeric side.** With at most ten state variables, all mentioned, and no constant right-hand side, the numeric dynamics reads
column `i` of the state as `xi`. -/
theorem C33_numeric_by_index_partial (sys : List AExpr) (n : ℕ) (hm : Mentions sys n) (hn : n ≤ 10)
    (hc : NoConstants sys) (hu : ∀ e ∈ sys, e.us = []) (p : List ℝ) (hp : p.length = n) :
    parsedTorch sys p = .ok (sys.map (AExpr.eval (stateEnv p) (fun _ => 0))) := by
  have hargs : stateArgs sys = List.range n := sortByName_small hm.perm hn
  simp only [parsedTorch, (numericOk_iff sys).2 hc, Bind.bind, Except.bind, hargs, List.length_range, hp, if_true]
  congr 1
  refine List.map_congr_left fun e he => ?_
  refine AExpr.eval_congr (fun i hi => ?_) (fun i hi => rfl)
  have : i < n := (hm i).1 (List.mem_flatMap.2 ⟨e, he, hi⟩)
  simp [bindArgs, stateEnv, idxOf_range this]

/-- a two-dimensional system that mentions both variables -/
example : Mentions [.x 1, .neg (.mul (.x 0) (.x 1))] 2 ∧ NoConstants [.x 1, .neg (.mul (.x 0) (.x 1))] := by
  refine ⟨?_, by simp [NoConstants, AExpr.xs]⟩
  intro i; simp [AExpr.xs]; omega

/-- **C33, the defect.** From eleven state variables on the numeric dynamics is wrong: it reads the third column as `x10` (names are
sorted as strings), whatever the system is, while the symbolic dynamics goes by name. -/
theorem C33_numeric_wrong_from_eleven (sys : List AExpr) (n : ℕ) (hm : Mentions sys n) (hn : 11 ≤ n) (hc : NoConstants sys) (p : List ℝ)
    (hp : p.length = n) :
    ∃ ρ : ℕ → ℝ, parsedTorch sys p = .ok (sys.map (AExpr.eval ρ (fun _ => 0))) ∧ ρ 10 = stateEnv p 2 ∧
      parsedSmt sys n = .ok sys := by
  obtain ⟨r, hr⟩ := sortByName_large hm.perm hn
  have hlen : (stateArgs sys).length = n := by
    have := (sortByName_perm _).trans hm.perm
    rw [stateArgs, this.length_eq, List.length_range]
  refine ⟨bindArgs (stateArgs sys) p, ?_, ?_, ?_⟩
  · simp [parsedTorch, (numericOk_iff sys).2 hc, Bind.bind, Except.bind, hlen, hp]
  · simp only [bindArgs, stateEnv, stateArgs, hr]
    rfl
  · unfold parsedSmt
    rw [if_pos]
    rw [List.all_eq_true]
    intro i hi
    simpa using (hm i).2 (List.mem_range.1 hi)

/-- For every dimension from eleven on there is a system and a state at which numeric and symbolic dynamics differ. -/
theorem C33_numeric_symbolic_disagree (n : ℕ) (hn : 11 ≤ n) :
    ∃ (sys : List AExpr) (p : List ℝ), p.length = n ∧ parsedSmt sys n = .ok sys ∧
      ∃ v, parsedTorch sys p = .ok v ∧ v ≠ sys.map (AExpr.eval (stateEnv p) (fun _ => 0)) := by
  set sys : List AExpr := (List.range n).map AExpr.x with hsys
  set p : List ℝ := (List.range n).map (fun i : ℕ => ((i : ℕ) : ℝ)) with hpdef
  have hm : Mentions sys n := by
    intro i
    simp [hsys, AExpr.xs, List.mem_flatMap]
  have hp : p.length = n := by simp [hpdef]
  obtain ⟨ρ, h1, h2, h3⟩ := C33_numeric_wrong_from_eleven sys n hm hn (by simp [NoConstants, hsys, AExpr.xs]) p hp
  refine ⟨sys, p, hp, h3, _, h1, ?_⟩
  intro heq
  have hmem : AExpr.x 10 ∈ sys := by simp [hsys]; omega
  have := List.map_inj_left.1 heq _ hmem
  simp only [AExpr.eval, h2] at this
  have e2 : stateEnv p 2 = 2 := by
    simp [stateEnv, hpdef, List.getD, List.getElem?_range, show 2 < n by omega]
  have e10 : stateEnv p 10 = 10 := by
    simp [stateEnv, hpdef, List.getD, List.getElem?_range, show 10 < n by omega]
  rw [e2, e10] at this
  norm_num at this

/-- Symbolic dynamics go by name: what `f_smt` returns for the variables `x0 ... x(n-1)` has the value of the parsed
expressions, for any number of variables; and it is an error if a variable is not mentioned. -/
theorem C33_symbolic_by_name (sys : List AExpr) (n : ℕ) :
    (∀ fs, parsedSmt sys n = .ok fs → ∀ p : List ℝ, fs.map (AExpr.eval (stateEnv p) (fun _ => 0)) =
        sys.map (AExpr.eval (stateEnv p) (fun _ => 0))) ∧
    (parsedSmt sys n = .error .keyError ↔ ∃ i < n, i ∉ sys.flatMap AExpr.xs) := by
  unfold parsedSmt
  constructor
  · intro fs h p
    split_ifs at h
    cases h; rfl
  · split_ifs with h
    · simp only [List.all_eq_true, List.mem_range, List.contains_iff_mem] at h
      constructor
      · intro h'; cases h'
      · rintro ⟨i, hi, hni⟩; exact absurd (h i hi) hni
    · simp only [List.all_eq_true, List.mem_range, List.contains_iff_mem, not_forall] at h
      obtain ⟨i, hi, hni⟩ := h
      simp only [true_iff]
      exact ⟨i, hi, hni⟩

/-! ### inputs -/

theorem AExpr.eval_substU (σ : ℕ → AExpr) (e : AExpr) (ρ μ : ℕ → ℝ) :
    (e.substU σ).eval ρ μ = e.eval ρ (fun i => (σ i).eval ρ μ) := by
  induction e with
  | num | x | u => rfl
  | add a b iha ihb | sub a b iha ihb | mul a b iha ihb | div a b iha ihb | pow a b iha ihb =>
    simp only [AExpr.substU, AExpr.eval, iha, ihb]
  | neg a ih | app f a ih => simp only [AExpr.substU, AExpr.eval, ih]

/-- **C33, inputs (Z3, CVC5).** Closing the loop symbolically with the controller expressions `ux`, and numerically with their values,
gives the same dynamics: both sides sort the inputs in the same way, so input names and controller outputs are paired
identically, for any number of inputs. (At most ten state variables, all mentioned.) -/
theorem C33_inputs_agree_partial (sys : List AExpr) (n : ℕ) (hm : Mentions sys n) (hn : n ≤ 10) (hc : NoConstants sys) (ux : List AExpr)
    (hlen : ux.length = (inputArgs sys).length) (p : List ℝ) (hp : p.length = n) (μ : ℕ → ℝ) :
    ∃ fs, parsedSmtU sys n ux = .ok fs ∧
      parsedTorchU sys p (ux.map (AExpr.eval (stateEnv p) μ)) = .ok (fs.map (AExpr.eval (stateEnv p) μ)) := by
  have hargs : stateArgs sys = List.range n := sortByName_small hm.perm hn
  have hall : (List.range n).all (fun i => (sys.flatMap AExpr.xs).contains i) = true := by
    rw [List.all_eq_true]
    intro i hi
    simpa using (hm i).2 (List.mem_range.1 hi)
  refine ⟨sys.map (AExpr.substU (fun i => ux.getD ((inputArgs sys).idxOf i) (.u i))), ?_, ?_⟩
  · simp only [parsedSmtU, hall, if_true, hlen, le_refl]
  · simp only [parsedTorchU, (numericOk_iff sys).2 hc, Bind.bind, Except.bind, hargs, List.length_range, hp, List.length_map, hlen, and_self, if_true]
    congr 1
    rw [List.map_map]
    refine List.map_congr_left fun e he => ?_
    simp only [Function.comp_apply, AExpr.eval_substU]
    refine AExpr.eval_congr (fun i hi => ?_) (fun i hi => ?_)
    · have : i < n := (hm i).1 (List.mem_flatMap.2 ⟨e, he, hi⟩)
      simp [bindArgs, stateEnv, idxOf_range this]
    · have hi' : i ∈ inputArgs sys :=
        (sortByName_perm _).mem_iff.2 (List.mem_dedup.2 (List.mem_flatMap.2 ⟨e, he, hi⟩))
      have hlt : (inputArgs sys).idxOf i < ux.length := by rw [hlen]; exact List.idxOf_lt_length_of_mem hi'
      simp [bindArgs, List.getD, List.getElem?_eq_getElem hlt]

/-- the hypotheses are met by a system with two inputs -/
example : ∃ (sys : List AExpr) (ux : List AExpr), Mentions sys 2 ∧ NoConstants sys ∧ (inputArgs sys).length = 2 ∧ ux.length = (inputArgs sys).length := by
  refine ⟨[.add (.x 1) (.u 0), .mul (.x 0) (.u 1)], [.x 0, .neg (.x 1)], ?_, by simp [NoConstants, AExpr.xs], ?_, ?_⟩
  · intro i; simp [AExpr.xs]; omega
  · rw [inputArgs, (sortByName_perm _).length_eq]; simp [AExpr.us]
  · rw [inputArgs, (sortByName_perm _).length_eq]; simp [AExpr.us]

theorem substLast_spec (σ : ℕ → AExpr) (e : AExpr) (seen : List ℕ) (hnd : e.us.Nodup) (hdisj : ∀ i ∈ e.us, i ∉ seen) :
    (e.substLast σ seen).1 = e.substU σ ∧ ∀ i, i ∈ (e.substLast σ seen).2 ↔ i ∈ seen ∨ i ∈ e.us := by
  induction e generalizing seen with
  | num | x => simp [AExpr.substLast, AExpr.substU, AExpr.us]
  | u i =>
    have : i ∉ seen := hdisj i (by simp [AExpr.us])
    simp [AExpr.substLast, AExpr.substU, AExpr.us, this]
    intro j; tauto
  | add a b iha ihb | sub a b iha ihb | mul a b iha ihb | div a b iha ihb | pow a b iha ihb =>
    simp only [AExpr.us, List.nodup_append, List.mem_append] at hnd hdisj
    obtain ⟨hb1, hb2⟩ := ihb seen hnd.2.1 (fun i hi => hdisj i (Or.inr hi))
    obtain ⟨ha1, ha2⟩ := iha (b.substLast σ seen).2 hnd.1 (fun i hi => by
      rw [hb2]
      rintro (h | h)
      · exact hdisj i (Or.inl hi) h
      · exact hnd.2.2 i hi i h rfl)
    refine ⟨by simp [AExpr.substLast, AExpr.substU, ha1, hb1], fun i => ?_⟩
    simp only [AExpr.substLast, AExpr.us, List.mem_append]
    rw [ha2, hb2]; tauto
  | neg a ih | app f a ih =>
    obtain ⟨h1, h2⟩ := ih seen hnd hdisj
    exact ⟨by simp [AExpr.substLast, AExpr.substU, h1], h2⟩

/-- **C33, inputs (dReal, partial).** If every input occurs only once in the system, the dReal substitution is the same as the others. -/
theorem C33_dreal_inputs_once_partial (sys : List AExpr) (n : ℕ) (ux : List AExpr) (h : (sys.flatMap AExpr.us).Nodup) :
    parsedSmtUDreal sys n ux = parsedSmtU sys n ux := by
  have key : ∀ (σ : ℕ → AExpr) (sys : List AExpr), (sys.flatMap AExpr.us).Nodup →
      (substLastSys σ sys).1 = sys.map (AExpr.substU σ) ∧
        ∀ i, i ∈ (substLastSys σ sys).2 ↔ i ∈ sys.flatMap AExpr.us := by
    intro σ sys
    induction sys with
    | nil => simp [substLastSys]
    | cons e sys ih =>
      intro hnd
      simp only [List.flatMap_cons, List.nodup_append] at hnd
      obtain ⟨h1, h2⟩ := ih hnd.2.1
      obtain ⟨h3, h4⟩ := substLast_spec σ e (substLastSys σ sys).2 hnd.1 (fun i hi hc =>
        hnd.2.2 i hi i ((h2 i).1 hc) rfl)
      refine ⟨by simp [substLastSys, h1, h3], fun i => ?_⟩
      simp only [substLastSys, List.flatMap_cons, List.mem_append]
      rw [h4, h2]; tauto
  simp only [parsedSmtUDreal, parsedSmtU, (key _ sys h).1]

/-- **C33, the defect (dReal).** An input that occurs twice is replaced by the controller only once: the other occurrence stays a free
variable of the closed-loop dynamics handed to dReal. Here `x0' = u0 + u0`, closed with any controller expression `k`, is
`u0 + k` instead of `k + k`. -/
theorem C33_dreal_repeated_input_left_free (k : AExpr) :
    parsedSmtUDreal [.add (.mul (.x 0) (.u 0)) (.u 0)] 1 [k] = .ok [.add (.mul (.x 0) (.u 0)) k] ∧
    parsedSmtU [.add (.mul (.x 0) (.u 0)) (.u 0)] 1 [k] = .ok [.add (.mul (.x 0) k) k] := by
  have h : inputArgs [.add (.mul (.x 0) (.u 0)) (.u 0)] = [0] := by
    simp [inputArgs, AExpr.us, sortByName, List.mergeSort]
  simp [parsedSmtUDreal, parsedSmtU, h, AExpr.xs, substLastSys, AExpr.substLast, AExpr.substU, List.range_succ]

end Fossil

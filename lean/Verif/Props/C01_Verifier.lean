/- C01–C04: what the verdict of the verifier means. -/
import Verif.Lemmas.Verifier
import Verif.Spec.Solver

namespace Fossil
open Spec

/-- The result dictionary of a run, when labels are distinct and no early stop happened or not. -/
private theorem run_cases (o : Oracle Answer) (groups : List (Dict String Formula))
    (hd : DistinctLabels groups) :
    ∃ gs gs', groups = gs ++ gs' ∧
      (solveGroups smtBackend o 0 [] groups).2 =
        (queries gs).mapIdx (fun i q => (q.1, o i q.2)) ∧
      (gs' = [] ∨ ∃ i, ∃ h : i < (queries gs).length, (o i (queries gs)[i].2).isSat = true) := by
  obtain ⟨gs, gs', h1, h2, h3⟩ := solveGroups_prefix smtBackend o 0 [] groups
  have hnd : Dict.keys (queries gs) |>.Nodup := by
    have : (queries gs).map Prod.fst <+: (queries groups).map Prod.fst := by
      rw [h1]; simp [queries]
    exact hd.sublist this.sublist
  have hres := solveGroup_nodup o 0 [] gs.flatten hnd (by simp [Dict.keys])
  simp only [List.nil_append, Nat.zero_add] at hres
  refine ⟨gs, gs', h1, by rw [h2, hres]; rfl, ?_⟩
  rcases h3 with h3 | ⟨-, h3⟩
  · exact .inl h3
  · right
    rw [hres] at h3
    simp only [Dict.values, List.any_eq_true, List.mem_map] at h3
    obtain ⟨r, ⟨p, hp, rfl⟩, hr⟩ := h3
    obtain ⟨i, hi, rfl⟩ := List.getElem_of_mem hp
    simp only [List.getElem_mapIdx] at hr
    exact ⟨i, by simpa [queries] using hi, hr⟩

/-- **C01.** For constraints with pairwise distinct labels, z3/cvc5 verification reports success iff every
one of the queries is answered `unsat`. -/
theorem C01_found_iff_every_query_unsat (n : ℕ) (noise : String → ℕ → ℕ → ℚ) (o : Oracle Answer)
    (groups : List (Dict String Formula)) (hd : DistinctLabels groups) :
    (∃ cex, verify smtBackend n noise o groups = .ok ⟨true, cex⟩) ↔
      ∀ k (h : k < (queries groups).length), o k (queries groups)[k].2 = .unsat := by
  obtain ⟨gs, gs', h1, h2, h3⟩ := run_cases o groups hd
  have key : (solveGroups smtBackend o 0 [] groups).2.values.all smtBackend.isUnsat = true ↔
      ∀ k (h : k < (queries groups).length), o k (queries groups)[k].2 = .unsat := by
    rw [h2]
    constructor
    · intro hall
      have hgs : ∀ i (h : i < (queries gs).length), o i (queries gs)[i].2 = .unsat := by
        intro i hi
        simp only [Dict.values, List.all_eq_true, List.mem_map] at hall
        have := hall (o i (queries gs)[i].2) ⟨((queries gs)[i].1, o i (queries gs)[i].2), by
          rw [List.mem_mapIdx]; exact ⟨i, hi, rfl⟩, rfl⟩
        simp only [smtBackend] at this
        cases hx : o i (queries gs)[i].2 <;> simp_all [Answer.isUnsat]
      rcases h3 with rfl | ⟨i, hi, hsat⟩
      · simp only [List.append_nil] at h1; subst h1; exact hgs
      · rw [hgs i hi] at hsat; simp [Answer.isSat] at hsat
    · intro hall
      simp only [Dict.values, List.all_eq_true, List.mem_map]
      rintro r ⟨p, hp, rfl⟩
      rw [List.mem_mapIdx] at hp
      obtain ⟨i, hi, rfl⟩ := hp
      have hi' : i < (queries groups).length := by
        rw [h1]; simp only [queries, List.flatten_append, List.length_append] at hi ⊢; omega
      have := hall i hi'
      have e : (queries groups)[i] = (queries gs)[i] := by
        subst h1
        simp only [queries, List.flatten_append] at hi ⊢
        rw [List.getElem_append_left hi]
      rw [e] at this
      simp [smtBackend, this, Answer.isUnsat]
  rw [← key]
  unfold verify
  constructor
  · rintro ⟨cex, h⟩
    by_contra hc
    simp only [hc] at h
    simp only [bind, Except.bind, pure, Except.pure] at h
    split at h
    · rename_i hh; simp at hh
    · split at h <;> simp at h
  · intro h
    simp only [h, if_true]
    exact ⟨_, rfl⟩

/-- **C01 (semantic reading).** With a refutation-sound solver, success means that no real assignment
satisfies any violation formula of any group. -/
theorem C01_success_means_no_violation (n : ℕ) (noise : String → ℕ → ℕ → ℚ) (o : Oracle Answer)
    (hs : RefutationSound o) (groups : List (Dict String Formula)) (hd : DistinctLabels groups)
    (cex) (h : verify smtBackend n noise o groups = .ok ⟨true, cex⟩) :
    ∀ g ∈ groups, ∀ q ∈ g, ∀ ρ : Env, ¬ q.2.holds ρ := by
  have hall := (C01_found_iff_every_query_unsat n noise o groups hd).1 ⟨cex, h⟩
  intro g hg q hq ρ
  have hmem : q ∈ queries groups := List.mem_flatten.2 ⟨g, hg, hq⟩
  obtain ⟨k, hk, rfl⟩ := List.getElem_of_mem hmem
  exact hs k _ (hall k hk) ρ

/-- Non-vacuity: two groups with distinct labels and a sound solver that succeeds. -/
example : ∃ (o : Oracle Answer) (groups : List (Dict String Formula)), RefutationSound o ∧
    DistinctLabels groups ∧ groups.length = 2 ∧
    ∃ cex, verify smtBackend 1 (fun _ _ _ => 0) o groups = .ok ⟨true, cex⟩ := by
  refine ⟨fun _ φ => if φ = .lt (.var 0) (.var 0) then .unsat else .unknown,
    [[("init", .lt (.var 0) (.var 0))], [("lie", .lt (.var 0) (.var 0))]], ?_, ?_, rfl, _, rfl⟩
  · intro k φ h ρ
    dsimp only at h
    split at h
    · rename_i e; subst e; simp [Formula.holds]
    · cases h
  · simp [DistinctLabels, queries]

/-- **C02.** When z3/cvc5 verification with distinct labels reports failure, there is a number `m` of groups
that were processed such that: the counterexample dictionary has exactly their labels; every label
whose query was not answered `sat` has an empty list; every label answered `sat` has 21 rows, the
last of which gives every solver variable the value in the solver's model; and, for a model-sound
solver and rational model, that last row satisfies the label's violation formula. If some groups were
not processed, a processed query was answered `sat`. -/
theorem C02_counterexamples_genuine (n : ℕ) (noise : String → ℕ → ℕ → ℚ) (o : Oracle Answer)
    (groups : List (Dict String Formula)) (hd : DistinctLabels groups)
    (cex) (h : verify smtBackend n noise o groups = .ok ⟨false, cex⟩) :
    ∃ m ≤ groups.length,
      cex.keys = (queries (groups.take m)).map Prod.fst ∧
      (m < groups.length → ∃ k, ∃ hk : k < (queries (groups.take m)).length, ∃ M,
        o k (queries (groups.take m))[k].2 = .sat M) ∧
      ∀ k (hk : k < (queries (groups.take m)).length),
        let label := (queries (groups.take m))[k].1
        let φ := (queries (groups.take m))[k].2
        match o k φ with
        | .sat M => ∃ rows pt, cex.get? label = some rows ∧ rows.length = 21 ∧
            rows.getLast? = some pt ∧ pt.length = n ∧
            (∀ i (hi : i < pt.length), M i = some (.rat pt[i]) ∨ ∃ x, M i = some (.alg x pt[i])) ∧
            (ModelSound o → formulaBelow n φ → (∀ i < n, ∃ q, M i = some (.rat q)) →
              φ.holds (listEnv pt))
        | _ => cex.get? label = some [] := by
  obtain ⟨gs, gs', h1, h2, h3⟩ := run_cases o groups hd
  have htake : groups.take gs.length = gs := by rw [h1]; simp
  have hnd : (queries gs).map Prod.fst |>.Nodup := by
    have : (queries gs).map Prod.fst <+: (queries groups).map Prod.fst := by
      rw [h1]; simp [queries]
    exact hd.sublist this.sublist
  unfold verify at h
  simp only [h2] at h
  split at h
  · simp at h
  · simp only [bind, Except.bind, pure, Except.pure] at h
    split at h
    · cases h
    · rename_i ces hces
      simp only [Except.ok.injEq, VerifyOut.mk.injEq, true_and] at h
      subst h
      set results := (queries gs).mapIdx (fun i q => (q.1, o i q.2)) with hres
      have hkeys : Dict.keys results = (queries gs).map Prod.fst := by
        simp only [Dict.keys, hres]
        apply List.ext_getElem
        · simp
        · intro i _ _; simp
      have hck : Dict.keys (results.map (fun p => (p.1, ([] : List (List ℚ))))) = (queries gs).map Prod.fst := by
        rw [← hkeys]; simp [Dict.keys]
      refine ⟨gs.length, by rw [h1]; simp, ?_, ?_, ?_⟩
      · rw [htake, fillCex_keys _ _ _ _ _ _ _ hces, hck]
        intro l hl; rw [hck, ← hkeys]; exact hl
      · intro hlt
        rw [htake]
        rcases h3 with rfl | ⟨i, hi, hsat⟩
        · simp [h1] at hlt
        · refine ⟨i, hi, ?_⟩
          cases hx : o i (queries gs)[i].2 with
          | sat M => exact ⟨M, rfl⟩
          | unsat => rw [hx] at hsat; simp [Answer.isSat] at hsat
          | unknown => rw [hx] at hsat; simp [Answer.isSat] at hsat
      · rw [htake]
        intro k hk
        have hk' : ((queries gs)[k].1, o k (queries gs)[k].2) ∈ results := by
          rw [hres, List.mem_mapIdx]; exact ⟨k, hk, rfl⟩
        obtain ⟨-, hf⟩ := fillCex_get? smtBackend n noise results _ _ (hkeys ▸ hnd) hces
        have := hf _ hk'
        have hempty : Dict.get? (results.map (fun p => (p.1, ([] : List (List ℚ))))) (queries gs)[k].1 = some [] := by
          apply Dict.mem_get?_of_nodup (hck ▸ hnd)
          exact List.mem_map_of_mem (f := fun p : String × Answer => (p.1, ([] : List (List ℚ)))) hk'
        dsimp only at this ⊢
        split
        · rename_i M hM
          rw [hM] at this
          simp only [smtBackend, Answer.isSat, if_true] at this
          obtain ⟨pt, hpt, hget⟩ := this
          obtain ⟨hlen, hval⟩ := computeModel_spec _ _ _ _ hpt
          have hval' : ∀ i (hi : i < pt.length), M i = some (.rat pt[i]) ∨ ∃ x, M i = some (.alg x pt[i]) := by
            intro i hi
            have := hval i hi
            simp only [Answer.value] at this
            split at this
            · rename_i q hq; simp only [Except.ok.injEq] at this; subst this; exact .inl hq
            · rename_i x q hq; simp only [Except.ok.injEq] at this; subst this; exact .inr ⟨x, hq⟩
            · cases this
          refine ⟨_, pt, hget, length_randomise _ _, getLast?_randomise _ _, hlen, hval', ?_⟩
          intro hms hb hrat
          have hh := hms k _ M hM
          rw [formula_congr hb (σ := modelEnv M)]
          · exact hh
          · intro i hi
            obtain ⟨q, hq⟩ := hrat i hi
            have hi' : i < pt.length := by omega
            rcases hval' i hi' with h | ⟨x, h⟩
            · simp [listEnv, modelEnv, h, hi']
            · rw [hq] at h; simp at h
        · rename_i hx
          have hns : smtBackend.isSat (o k (queries gs)[k].2) = false := by
            cases hy : o k (queries gs)[k].2 with
            | sat M => exact absurd hy (hx M)
            | _ => rfl
          rw [hns] at this
          simp only [Bool.false_eq_true, if_false] at this
          rw [this, hempty]

/-- Non-vacuity of C02: a failing run with a genuine rational counterexample. -/
example : ∃ (o : Oracle Answer) (groups : List (Dict String Formula)), ModelSound o ∧
    DistinctLabels groups ∧
    ∃ cex, verify smtBackend 1 (fun _ _ _ => 0) o groups = .ok ⟨false, cex⟩ ∧
      (cex.get? "lie").isSome := by
  refine ⟨fun _ φ => if φ = .lt (.const 0) (.var 0) then .sat (fun _ => some (.rat 2)) else .unknown,
    [[("lie", .lt (.const 0) (.var 0))], [("init", .tt)]], ?_, ?_, _, rfl, rfl⟩
  · intro k φ m h
    dsimp only at h
    split at h
    · rename_i e; subst e; cases h
      simp [Formula.holds, Term.eval, modelEnv]
    · cases h
  · simp [DistinctLabels, queries]

/-- **C03 (partial).** Without assuming distinct labels across groups (only inside each dictionary): if the
solver never answers `unknown`, success means every query was answered `unsat`.
The full statement (with `unknown` answers) is false: `C03_repeated_label_hides_unknown`. -/
theorem C03_success_all_unsat_partial (n : ℕ) (noise : String → ℕ → ℕ → ℚ) (o : Oracle Answer)
    (groups : List (Dict String Formula)) (hg : ∀ g ∈ groups, g.keys.Nodup)
    (hdec : ∀ k φ, o k φ ≠ .unknown)
    (cex) (h : verify smtBackend n noise o groups = .ok ⟨true, cex⟩) :
    ∀ k (hk : k < (queries groups).length), o k (queries groups)[k].2 = .unsat := by
  have hall : (solveGroups smtBackend o 0 [] groups).2.values.all smtBackend.isUnsat = true := by
    by_contra hc
    unfold verify at h
    simp only [hc] at h
    simp only [bind, Except.bind, pure, Except.pure] at h
    split at h
    · rename_i hh; simp at hh
    · split at h <;> simp at h
  -- generalise over the starting state
  have gen : ∀ (groups : List (Dict String Formula)), (∀ g ∈ groups, g.keys.Nodup) → ∀ k res,
      (solveGroups smtBackend o k res groups).2.values.all smtBackend.isUnsat = true →
      ∀ i (hi : i < (queries groups).length), o (k + i) (queries groups)[i].2 = .unsat := by
    intro groups
    induction groups with
    | nil => intro _ k res _ i hi; simp [queries] at hi
    | cons g gs ih =>
      intro hg k res hall
      simp only [solveGroups] at hall
      -- every answer of the group is recorded
      have hrec : ∀ i (hi : i < g.length),
          (solveGroup o k res g).2.get? g[i].1 = some (o (k + i) g[i].2) := by
        intro i hi
        apply solveGroup_get?
        intro j hj hij e
        have := (List.nodup_iff_injective_get.1 (hg g (by simp)))
        have h2 := @this ⟨j, by simpa [Dict.keys] using hj⟩ ⟨i, by simpa [Dict.keys] using hi⟩
          (by simpa [Dict.keys] using e)
        simp only [Fin.mk.injEq] at h2; omega
      have hgrp : ∀ i (hi : i < g.length),
          (¬ (solveGroup o k res g).2.values.any smtBackend.isSat = true ∨
            (solveGroup o k res g).2.values.all smtBackend.isUnsat = true) →
          o (k + i) g[i].2 = .unsat := by
        intro i hi hor
        have hm := Dict.get?_eq_some_mem (hrec i hi)
        have hv : o (k + i) g[i].2 ∈ (solveGroup o k res g).2.values :=
          List.mem_map_of_mem (f := Prod.snd) hm
        cases hx : o (k + i) g[i].2 with
        | unsat => rfl
        | unknown => exact absurd hx (hdec _ _)
        | sat M =>
          rw [hx] at hv
          rcases hor with hor | hor
          · exact absurd (List.any_eq_true.2 ⟨_, hv, rfl⟩) hor
          · have := List.all_eq_true.1 hor _ hv
            simp [smtBackend, Answer.isUnsat] at this
      split at hall
      · rename_i hsat
        -- sat and all unsat is impossible
        obtain ⟨r, hr, hrs⟩ := List.any_eq_true.1 hsat
        have := List.all_eq_true.1 hall r hr
        cases r <;> simp [smtBackend, Answer.isSat, Answer.isUnsat] at hrs this
      · rename_i hns
        intro i hi
        simp only [queries, List.flatten_cons] at hi ⊢
        by_cases hlt : i < g.length
        · rw [List.getElem_append_left hlt]
          exact hgrp i hlt (.inl hns)
        · rw [List.getElem_append_right (by omega)]
          have := ih (fun g' hg' => hg g' (by simp [hg'])) _ _ hall (i - g.length)
            (by simp only [queries, List.length_append] at hi ⊢; omega)
          rw [solveGroup_fst] at this
          rw [show k + g.length + (i - g.length) = k + i by omega] at this
          exact this
  intro k hk
  have := gen groups hg 0 [] hall k hk
  simpa using this

/-- Non-vacuity of C03 (partial): repeated labels, decided solver. -/
example : ∃ (o : Oracle Answer) (groups : List (Dict String Formula)),
    (∀ g ∈ groups, g.keys.Nodup) ∧ ¬ DistinctLabels groups ∧ (∀ k φ, o k φ ≠ .unknown) ∧
    ∃ cex, verify smtBackend 1 (fun _ _ _ => 0) o groups = .ok ⟨true, cex⟩ :=
  ⟨fun _ _ => .unsat, [[("lie", .ff)], [("lie", .lt (.var 0) (.var 0))]],
    by simp [Dict.keys], by simp [DistinctLabels, queries], by simp, _, rfl⟩

/-- C03 is false: when a label is used by two groups, an `unknown` (e.g. timed-out) answer to the first query
is overwritten by the later answer, and verification reports success although the first query was never
refuted — with a solver that is refutation-sound, and a first violation formula that is satisfiable. -/
theorem C03_repeated_label_hides_unknown :
    ∃ (o : Oracle Answer) (groups : List (Dict String Formula)), RefutationSound o ∧
      (∀ g ∈ groups, g.keys.Nodup) ∧
      (∃ cex, verify smtBackend 1 (fun _ _ _ => 0) o groups = .ok ⟨true, cex⟩) ∧
      ∃ g ∈ groups, ∃ q ∈ g, ∃ ρ : Env, q.2.holds ρ := by
  refine ⟨fun _ φ => if φ = .ff then .unsat else .unknown,
    [[("lie", .le (.var 0) (.var 0))], [("lie", .ff)]], ?_, by simp [Dict.keys], ⟨_, rfl⟩, ?_⟩
  · intro k φ h ρ
    dsimp only at h
    split at h
    · rename_i e; subst e; simp [Formula.holds]
    · cases h
  · exact ⟨[("lie", .le (.var 0) (.var 0))], by simp, ("lie", .le (.var 0) (.var 0)), by simp,
      fun _ => 0, by simp [Formula.holds]⟩

/-! ### C04: dReal -/

/-- What is assumed of `dr.CheckSatisfiability`: `None` only for unsatisfiable formulas. -/
def DRealSound (check : ℕ → Formula → Option Box) : Prop :=
  ∀ k φ, check k φ = none → ∀ ρ : Env, ¬ φ.holds ρ

/-- A run of the dReal verifier: query `k` makes the (at most two) solver calls `check k 0`, `check k 1`. -/
def drealOracle (n : ℕ) (check : ℕ → ℕ → Formula → Option Box) : Oracle (Option Box) :=
  fun k φ => drealSolve n (check k) φ

/-- What is assumed of the boxes of `dr.CheckSatisfiability`: for a query in the state variables only, confining them to
(-1000, 1000), the midpoints of the box are in (-1e300, 1e300). -/
def BoxesInRange (n : ℕ) (check : ℕ → Formula → Option Box) : Prop :=
  ∀ k φ bx, formulaBelow n φ → (∀ ρ : Env, φ.holds ρ → ∀ i < n, -1000 < ρ i ∧ ρ i < 1000) → check k φ = some bx →
    ∀ p ∈ bx, -(10 : ℚ) ^ 300 < p.2 ∧ p.2 < 10 ^ 300

theorem withinBounds_iff (bx : Box) :
    withinBounds (some bx) = true ↔ ∀ p ∈ bx, -(10 : ℚ) ^ 300 < p.2 ∧ p.2 < 10 ^ 300 := by
  simp [withinBounds, inBounds]

theorem secondChance_below {n : ℕ} {φ : Formula} (h : formulaBelow n φ) : formulaBelow n (secondChance n φ) := by
  have key : ∀ l : List Formula, (∀ ψ ∈ l, formulaBelow n ψ) → formulaBelow n (Formula.conj l) := by
    intro l
    induction l with
    | nil => intro _; trivial
    | cons a l ih =>
      intro h
      cases l with
      | nil => exact h a (by simp)
      | cons b l => exact ⟨h a (by simp), ih (fun t ht => h t (by simp [ht]))⟩
  refine key _ fun ψ hψ => ?_
  rcases List.mem_cons.1 hψ with rfl | hψ
  · exact h
  · simp only [vars, List.map_map, List.mem_map, List.mem_range] at hψ
    obtain ⟨i, hi, rfl⟩ := hψ
    exact ⟨⟨hi, trivial⟩, trivial, hi⟩

theorem secondChance_confines (n : ℕ) (φ : Formula) (ρ : Env) (h : (secondChance n φ).holds ρ) :
    ∀ i < n, -1000 < ρ i ∧ ρ i < 1000 := by
  intro i hi
  simp only [secondChance, Formula.holds_conj, List.mem_cons, List.mem_map, forall_eq_or_imp] at h
  have := h.2 _ ⟨.var i, by simp [vars, hi], rfl⟩
  simp only [Formula.holds, Term.eval] at this
  push_cast at this
  exact ⟨this.2, this.1⟩

/-- **C04 (partial).** If every violation formula is in the state variables only and confines them to (-1000, 1000) (bounded domains), and
boxes returned for such queries are within the variable bounds, dReal success on distinct labels
means no violation formula has a real solution.
Missing: unbounded formulas — false, see `C04_dreal_unbounded_violation_missed`. -/
theorem C04_dreal_success_partial (n : ℕ) (noise : String → ℕ → ℕ → ℚ)
    (check : ℕ → ℕ → Formula → Option Box) (hs : ∀ k, DRealSound (check k))
    (groups : List (Dict String Formula)) (hd : DistinctLabels groups) (hbl : ∀ g ∈ groups, ∀ q ∈ g, formulaBelow n q.2)
    (hbd : ∀ g ∈ groups, ∀ q ∈ g, ∀ ρ : Env, q.2.holds ρ → ∀ i < n, -1000 < ρ i ∧ ρ i < 1000)
    (hbox : ∀ k, BoxesInRange n (check k))
    (cex) (h : verify drealBackend n noise (drealOracle n check) groups = .ok ⟨true, cex⟩) :
    ∀ g ∈ groups, ∀ q ∈ g, ∀ ρ : Env, ¬ q.2.holds ρ := by
  have hexcl : ∀ k φ, formulaBelow n φ → drealIsUnsat (drealOracle n check k φ) = true → drealOracle n check k φ = none := by
    intro k φ hbφ hu
    cases hx : drealOracle n check k φ with
    | none => rfl
    | some bx =>
      rw [hx] at hu
      simp only [drealIsUnsat, Option.isNone_some, Bool.false_or, Bool.not_eq_true'] at hu
      simp only [drealOracle, drealSolve] at hx
      split at hx
      · rw [(withinBounds_iff bx).2 (hbox k 1 _ bx (secondChance_below hbφ) (secondChance_confines n φ) hx)] at hu; cases hu
      · rename_i hc
        rw [hx] at hc
        simp [drealIsSat, hu] at hc
  have hall : (solveGroups drealBackend (drealOracle n check) 0 [] groups).2.values.all
      drealBackend.isUnsat = true := by
    by_contra hc
    unfold verify at h
    simp only [hc] at h
    simp only [bind, Except.bind, pure, Except.pure] at h
    split at h
    · rename_i hh; simp at hh
    · split at h <;> simp at h
  obtain ⟨gs, gs', h1, h2, h3⟩ := solveGroups_prefix drealBackend (drealOracle n check) 0 [] groups
  have hnd : Dict.keys (queries gs) |>.Nodup := by
    have : (queries gs).map Prod.fst <+: (queries groups).map Prod.fst := by
      rw [h1]; simp [queries]
    exact hd.sublist this.sublist
  have hres := solveGroup_nodup (drealOracle n check) 0 [] gs.flatten hnd (by simp [Dict.keys])
  simp only [List.nil_append, Nat.zero_add] at hres
  rw [h2, hres] at hall
  have hnone : ∀ i (hi : i < gs.flatten.length), drealOracle n check i gs.flatten[i].2 = none := by
    intro i hi
    have hbi : formulaBelow n gs.flatten[i].2 := by
      obtain ⟨g, hg, hm⟩ := List.mem_flatten.1 (List.getElem_mem hi)
      exact hbl g (by rw [h1]; simp [hg]) _ hm
    apply hexcl _ _ hbi
    have := List.all_eq_true.1 hall (drealOracle n check i gs.flatten[i].2) (by
      simp only [Dict.values, List.mem_map]
      exact ⟨(gs.flatten[i].1, drealOracle n check i gs.flatten[i].2), by
        rw [List.mem_mapIdx]; exact ⟨i, hi, rfl⟩, rfl⟩)
    exact this
  have hgs' : gs' = [] := by
    rcases h3 with h3 | ⟨-, h3⟩
    · exact h3
    · rw [hres] at h3
      obtain ⟨r, hr, hrs⟩ := List.any_eq_true.1 h3
      simp only [Dict.values, List.mem_map] at hr
      obtain ⟨p, hp, rfl⟩ := hr
      rw [List.mem_mapIdx] at hp
      obtain ⟨i, hi, rfl⟩ := hp
      rw [hnone i hi] at hrs
      simp [drealBackend, drealIsSat] at hrs
  rw [hgs', List.append_nil] at h1
  subst h1
  intro g hg q hq ρ hρ
  have hmem : q ∈ groups.flatten := List.mem_flatten.2 ⟨g, hg, hq⟩
  obtain ⟨k, hk, rfl⟩ := List.getElem_of_mem hmem
  have hn := hnone k hk
  simp only [drealOracle, drealSolve] at hn
  split at hn
  · refine hs k 1 _ hn ρ ?_
    simp only [secondChance, Formula.holds_conj, List.mem_cons, List.mem_map, forall_eq_or_imp]
    refine ⟨hρ, ?_⟩
    rintro _ ⟨t, ht, rfl⟩
    simp only [vars, List.mem_map, List.mem_range] at ht
    obtain ⟨i, hi, rfl⟩ := ht
    have := hbd g hg _ hq ρ hρ i hi
    simp only [Formula.holds, Term.eval]
    push_cast
    exact ⟨this.2, this.1⟩
  · exact hs k 0 _ hn ρ hρ

/-- Non-vacuity: a bounded violation formula, sound dReal answers, success. -/
example : ∃ (check : ℕ → ℕ → Formula → Option Box) (groups : List (Dict String Formula)),
    (∀ k, DRealSound (check k)) ∧ DistinctLabels groups ∧ groups ≠ [] ∧ (∀ g ∈ groups, ∀ q ∈ g, formulaBelow 1 q.2) ∧
    (∀ g ∈ groups, ∀ q ∈ g, ∀ ρ : Env, q.2.holds ρ → ∀ i < 1, -1000 < ρ i ∧ ρ i < 1000) ∧
    (∀ k, BoxesInRange 1 (check k)) ∧
    ∃ cex, verify drealBackend 1 (fun _ _ _ => 0) (drealOracle 1 check) groups = .ok ⟨true, cex⟩ := by
  refine ⟨fun _ _ φ => if φ = .ff then none else some [], [[("lie", .ff)]], ?_, ?_, by simp, by simp [formulaBelow], ?_, ?_, _, rfl⟩
  · intro _ k φ h ρ
    dsimp only at h
    split at h
    · rename_i e; subst e; simp [Formula.holds]
    · cases h
  · simp [DistinctLabels, queries]
  · simp [Formula.holds]
  · intro _ k φ bx _ _ h
    dsimp only at h
    split at h
    · cases h
    · cases h; simp

/-- C04 is false: a violation formula that is satisfiable, but only far from the origin, is reported as
"no counterexample" even though dReal answers both calls truthfully (first call: a box around a genuine
solution beyond the 1e300 bound; second-chance call restricted to |x| < 1e3: unsatisfiable). -/
theorem C04_dreal_unbounded_violation_missed :
    ∃ (check : ℕ → ℕ → Formula → Option Box) (φ : Formula), (∀ k, DRealSound (check k)) ∧
      (∀ k j bx, check k j φ = some bx → φ.holds (fun i => ((Dict.get? bx i).getD 0 : ℚ))) ∧
      (∃ ρ : Env, φ.holds ρ) ∧
      ∃ cex, verify drealBackend 1 (fun _ _ _ => 0) (drealOracle 1 check) [[("lie", φ)]]
        = .ok ⟨true, cex⟩ := by
  refine ⟨fun _ _ φ => if φ = secondChance 1 (.le (.const (10 ^ 300)) (.var 0)) then none
    else some [(0, 10 ^ 300)], .le (.const (10 ^ 300)) (.var 0), ?_, ?_, ?_, ?_⟩
  · intro _ k φ h ρ
    dsimp only at h
    split at h
    · rename_i e; subst e
      simp only [secondChance, vars, List.range, List.range.loop, List.map, Formula.conj, Formula.holds, Term.eval]
      rintro ⟨h1, h2, h3⟩
      push_cast at h1 h2
      have h4 : (10:ℝ) ^ 3 ≤ 10 ^ 300 := pow_le_pow_right₀ (by norm_num) (by norm_num)
      have h5 : (10:ℝ) ^ 3 = 1000 := by norm_num
      generalize (10:ℝ) ^ 300 = c at *
      linarith
    · cases h
  · intro k j bx h
    dsimp only at h
    split at h
    · cases h
    · cases h
      simp [Formula.holds, Term.eval]
  · exact ⟨fun _ => 10 ^ 300, by simp [Formula.holds, Term.eval]⟩
  · have e : drealSolve 1 (fun _ φ => if φ = secondChance 1 (.le (.const (10 ^ 300)) (.var 0)) then none
        else some [(0, 10 ^ 300)]) (.le (.const (10 ^ 300)) (.var 0)) = none := by
      have hne : ¬ (Formula.le (.const (10 ^ 300)) (.var 0) =
          secondChance 1 (.le (.const (10 ^ 300)) (.var 0))) := by
        simp [secondChance, vars, List.range, List.range.loop, Formula.conj]
      simp only [drealSolve, hne, if_false, drealIsSat, withinBounds, List.all_cons, List.all_nil, inBounds]
      simp
    simp only [verify, solveGroups, solveGroup, drealOracle, e, Dict.set, Dict.values]
    exact ⟨_, rfl⟩

/-- Bounded sets do not help if the query contains a variable that is not a state variable (such as an input for which nothing was substituted): its
entry of the box is checked against the 1e300 bound, but the second-chance query restricts the state variables only. A violation formula confining the state
to `[0, 1]` is satisfiable, dReal answers both calls with genuine solutions, and success is reported. -/
theorem C04_dreal_leftover_variable_missed :
    ∃ (check : ℕ → ℕ → Formula → Option Box) (φ : Formula), (∀ k, DRealSound (check k)) ∧
      (∀ ρ : Env, φ.holds ρ → 0 ≤ ρ 0 ∧ ρ 0 ≤ 1) ∧
      (∀ k j ψ bx, ψ = φ ∨ ψ = secondChance 1 φ → check k j ψ = some bx → ψ.holds (fun i => ((Dict.get? bx i).getD 0 : ℚ))) ∧
      (∃ ρ : Env, φ.holds ρ) ∧
      ∃ cex, verify drealBackend 1 (fun _ _ _ => 0) (drealOracle 1 check) [[("lie", φ)]]
        = .ok ⟨true, cex⟩ := by
  refine ⟨fun _ _ _ => some [(0, 0), (1, 10 ^ 300)], .and (.and (.le (.const 0) (.var 0)) (.le (.var 0) (.const 1))) (.le (.var 0) (.var 1)),
    (fun _ _ _ h => by cases h), ?_, ?_, ⟨fun _ => 0, by simp [Formula.holds, Term.eval]⟩, ?_⟩
  · intro ρ h
    simp only [Formula.holds, Term.eval] at h
    push_cast at h
    exact h.1
  · rintro k j ψ bx hψ h
    cases h
    rcases hψ with rfl | rfl <;>
      simp [secondChance, vars, List.range, List.range.loop, Formula.conj, Formula.holds, Term.eval, Dict.get?]
  · have hw : withinBounds (some [(0, 0), (1, 10 ^ 300)]) = false := by
      rw [← Bool.not_eq_true, withinBounds_iff]
      intro h
      exact lt_irrefl _ (h (1, 10 ^ 300) (by simp)).2
    have e : ∀ φ, drealSolve 1 (fun _ _ => some [(0, 0), (1, 10 ^ 300)]) φ = some [(0, 0), (1, 10 ^ 300)] := by
      intro φ
      simp [drealSolve]
    have hu : drealIsUnsat (some [(0, 0), (1, 10 ^ 300)]) = true := by simp [drealIsUnsat, hw]
    simp only [verify, solveGroups, solveGroup, drealOracle, e, Dict.set, Dict.values]
    simp [drealBackend, hu, pure, Except.pure]

/-- A second defect behind C04: a result box that is outside the bounds counts both as "sat" (stopping the
loop before later groups are queried) and as "unsat" (making the verdict a success). Whatever the remaining
groups contain, they are never queried and success is reported. -/
theorem C04_out_of_bounds_box_skips_remaining_groups (bx : Box)
    (hout : ∃ p ∈ bx, p.2 ≤ -(10 : ℚ) ^ 300 ∨ (10 : ℚ) ^ 300 ≤ p.2)
    (o : Oracle (Option Box)) (l : String) (φ : Formula) (ho : o 0 φ = some bx)
    (rest : List (Dict String Formula)) (n : ℕ) (noise : String → ℕ → ℕ → ℚ) :
    verify drealBackend n noise o ([(l, φ)] :: rest) = .ok ⟨true, [(l, [])]⟩ := by
  have hbx : withinBounds (some bx) = false := by
    rw [← Bool.not_eq_true, withinBounds_iff]
    obtain ⟨p, hp, h⟩ := hout
    intro hall
    have := hall p hp
    rcases h with h | h
    · exact absurd this.1 (not_lt.2 h)
    · exact absurd this.2 (not_lt.2 h)
  simp [verify, solveGroups, solveGroup, ho, Dict.set, Dict.values, drealBackend, drealIsSat,
    drealIsUnsat, hbx]

example : ∃ p ∈ ([(0, 10 ^ 301)] : Box), p.2 ≤ -(10 : ℚ) ^ 300 ∨ (10 : ℚ) ^ 300 ≤ p.2 :=
  ⟨(0, 10 ^ 301), List.mem_singleton.2 rfl, Or.inr (pow_le_pow_right₀ (a := (10 : ℚ)) (m := 300) (n := 301) (by norm_num) (by norm_num))⟩

/-- **C04, found violations count.** If the first call of the solver for a query of the first group (always asked) returns a box within the bounds, the
verification does not succeed, whatever the other answers are. -/
theorem C04_violation_in_bounds_not_success (n : ℕ) (noise : String → ℕ → ℕ → ℚ) (check : ℕ → ℕ → Formula → Option Box) (g : Dict String Formula)
    (rest : List (Dict String Formula)) (hd : g.keys.Nodup) (k : ℕ) (hk : k < g.length) (bx : Box) (hb : check k 0 g[k].2 = some bx)
    (hin : ∀ p ∈ bx, -(10 : ℚ) ^ 300 < p.2 ∧ p.2 < (10 : ℚ) ^ 300) (cex) :
    verify drealBackend n noise (drealOracle n check) (g :: rest) ≠ .ok ⟨true, cex⟩ := by
  intro h
  have hw : withinBounds (some bx) = true := (withinBounds_iff bx).2 hin
  have ho : drealOracle n check k g[k].2 = some bx := by
    simp only [drealOracle, drealSolve, hb, hw, Bool.not_true, Bool.and_false, Bool.false_eq_true, if_false]
  have hres := solveGroup_nodup (drealOracle n check) 0 [] g hd (by simp [Dict.keys])
  simp only [List.nil_append, Nat.zero_add] at hres
  have hmem : some bx ∈ (solveGroup (drealOracle n check) 0 [] g).2.values := by
    rw [hres]
    simp only [Dict.values, List.mem_map]
    exact ⟨(g[k].1, drealOracle n check k g[k].2), by rw [List.mem_mapIdx]; exact ⟨k, hk, rfl⟩, ho⟩
  have hany : (solveGroup (drealOracle n check) 0 [] g).2.values.any drealBackend.isSat = true :=
    List.any_eq_true.2 ⟨_, hmem, rfl⟩
  have hsol : solveGroups drealBackend (drealOracle n check) 0 [] (g :: rest) = solveGroup (drealOracle n check) 0 [] g := by
    simp only [solveGroups, hany, if_true]
  have hall : ¬ ((solveGroups drealBackend (drealOracle n check) 0 [] (g :: rest)).2.values.all drealBackend.isUnsat = true) := by
    rw [hsol, List.all_eq_true]
    intro hc
    have := hc _ hmem
    simp [drealBackend, drealIsUnsat, hw] at this
  unfold verify at h
  simp only [hall] at h
  simp only [bind, Except.bind, pure, Except.pure] at h
  split at h
  · rename_i hh; simp at hh
  · split at h <;> simp at h

/-- Non-vacuity: a second call that would have answered "none" is not made. -/
example : (fun k φ => if k = 0 then some [(0, 1)] else none : ℕ → Formula → Option Box) 0 (.lt (.const 0) (.var 0)) = some [(0, 1)] ∧
    ∀ p ∈ ([(0, 1)] : Box), -(10 : ℚ) ^ 300 < p.2 ∧ p.2 < (10 : ℚ) ^ 300 := by
  refine ⟨rfl, ?_⟩
  intro p hp
  rw [List.mem_singleton] at hp
  subst hp
  exact ⟨by decide +kernel, by decide +kernel⟩

/-- The dummy verifier accepts everything: its verdict carries no information (verifier.py:597-604). -/
theorem C04_none_verifier_always_succeeds : verifyNone.found = true := rfl

end Fossil

/- C02 for dReal: which numbers the counterexample rows contain. -/
import Verif.Props.C01_Verifier

namespace Fossil

open Spec

/-- **C02, dReal.** When dReal verification with distinct labels reports failure, every non-empty list of counterexamples belongs to a query that was answered with a
box: it has 21 rows, and the last one consists of the first `n` midpoints of the box, in the order of the box. If the box lists
all solver variables in order, that row gives every variable its midpoint. -/
theorem C02_dreal_counterexamples (n : ℕ) (noise : String → ℕ → ℕ → ℚ) (o : Oracle (Option Box)) (groups : List (Dict String Formula))
    (hd : DistinctLabels groups) (cex) (h : verify drealBackend n noise o groups = .ok ⟨false, cex⟩) (label : String) (rows : List (List ℚ))
    (hr : Dict.get? cex label = some rows) (hne : rows ≠ []) :
    ∃ k φ bx pt, (label, φ) ∈ queries groups ∧ o k φ = some bx ∧ rows.length = 21 ∧ rows.getLast? = some pt ∧ pt.length = n ∧
      pt = (bx.take n).map Prod.snd ∧ (bx.map Prod.fst = List.range n → ∀ i (hi : i < pt.length), Dict.get? bx i = some pt[i]) := by
  obtain ⟨gs, gs', h1, h2, -⟩ := solveGroups_prefix drealBackend o 0 [] groups
  have hnd : Dict.keys (queries gs) |>.Nodup := by
    have : (queries gs).map Prod.fst <+: (queries groups).map Prod.fst := by
      rw [h1]; simp [queries]
    exact hd.sublist this.sublist
  have hres := solveGroup_nodup o 0 [] gs.flatten hnd (by simp [Dict.keys])
  simp only [List.nil_append, Nat.zero_add] at hres
  have h2' : (solveGroups drealBackend o 0 [] groups).2 = (queries gs).mapIdx (fun i q => (q.1, o i q.2)) := by rw [h2, hres]; rfl
  unfold verify at h
  simp only [h2'] at h
  split at h
  · simp at h
  obtain ⟨ces, hces, h⟩ := except_bind_ok h
  cases h
  change fillCex drealBackend n noise ((queries gs).mapIdx (fun i q => (q.1, o i q.2))) _ = _ at hces
  set results := (queries gs).mapIdx (fun i q => (q.1, o i q.2)) with hrs
  have hkeys : Dict.keys results = (queries gs).map Prod.fst := by
    simp only [Dict.keys, hrs]
    apply List.ext_getElem
    · simp
    · intro i _ _; simp
  have hck : Dict.keys (results.map (fun p => (p.1, ([] : List (List ℚ))))) = (queries gs).map Prod.fst := by
    rw [← hkeys]; simp [Dict.keys]
  have hk : label ∈ Dict.keys results := by
    have hk := fillCex_keys _ _ _ _ _ _ (by intro l hl; rw [hck, ← hkeys]; exact hl) hces
    rw [hkeys, ← hck, ← hk]
    exact Dict.get?_isSome_iff.1 (by rw [hr]; rfl)
  obtain ⟨⟨l', r⟩, hm, rfl⟩ := List.mem_map.1 hk
  obtain ⟨-, hf⟩ := fillCex_get? drealBackend n noise results _ _ (hkeys ▸ hnd) hces
  have := hf _ hm
  by_cases hs : drealBackend.isSat r = true
  · simp only [hs, if_true] at this
    obtain ⟨pt, hpt, hget⟩ := this
    obtain ⟨hlen, hval⟩ := computeModel_spec _ _ _ _ hpt
    rw [hr] at hget
    cases hget
    rw [hrs, List.mem_mapIdx] at hm
    obtain ⟨k, hk', e⟩ := hm
    simp only [Prod.mk.injEq] at e
    obtain ⟨bx, rfl⟩ : ∃ bx, r = some bx := Option.isSome_iff_exists.1 hs
    have hent : ∀ i (hi : i < pt.length), ∃ j, bx[i]? = some (j, pt[i]) := by
      intro i hi
      have := hval i hi
      simp only [drealBackend, drealValue] at this
      split at this
      · rename_i p hp
        have e' := Except.ok.inj this
        exact ⟨p.1, by rw [hp]; exact congrArg some (Prod.ext rfl e')⟩
      · cases this
    refine ⟨k, (queries gs)[k].2, bx, pt, ?_, e.2, length_randomise _ _, getLast?_randomise _ _, hlen, ?_, ?_⟩
    · rw [h1, ← e.1]
      simp only [queries, List.flatten_append]
      exact List.mem_append_left _ (List.getElem_mem hk')
    · apply List.ext_getElem?
      intro i
      by_cases hi : i < n
      · obtain ⟨j, hj⟩ := hent i (by omega)
        rw [List.getElem?_map, List.getElem?_take_of_lt hi, hj, List.getElem?_eq_getElem (by omega)]
        rfl
      · rw [List.getElem?_eq_none (by omega), List.getElem?_eq_none (by simp; omega)]
    · intro hord i hi
      obtain ⟨j, hj⟩ := hent i hi
      have hji : j = i := by
        have e1 : (bx.map Prod.fst)[i]? = some j := by rw [List.getElem?_map, hj]; rfl
        rw [hord, List.getElem?_range (by omega)] at e1
        exact (Option.some.inj e1).symm
      subst hji
      refine Dict.mem_get?_of_nodup (by rw [Dict.keys, hord]; exact List.nodup_range) (List.mem_of_getElem? hj)
  · simp only [hs] at this
    have hempty : Dict.get? (results.map (fun p => (p.1, ([] : List (List ℚ))))) l' = some [] := by
      apply Dict.mem_get?_of_nodup (hck ▸ hnd)
      exact List.mem_map_of_mem (f := fun p : String × Option Box => (p.1, ([] : List (List ℚ)))) hm
    simp only at this hr
    rw [hr] at this
    simp [hempty] at this
    exact absurd this hne

/-- **C02, dReal, the defect.** A query that does not mention all `n` solver variables is answered with a box that does not list them either; reading the
counterexample then fails, whatever the box says. -/
theorem C02_dreal_missing_variable_raises (n : ℕ) (noise : String → ℕ → ℕ → ℚ) (o : Oracle (Option Box)) (label : String) (φ : Formula) (bx : Box)
    (ho : o 0 φ = some bx) (hb : withinBounds (some bx) = true) (hlt : bx.length < n) :
    verify drealBackend n noise o [[(label, φ)]] = .error .indexError := by
  have go : ∀ (l : List ℕ), (∃ i ∈ l, bx.length ≤ i) → computeModel.go drealBackend (some bx) l = .error .indexError := by
    intro l
    induction l with
    | nil => rintro ⟨i, hi, -⟩; cases hi
    | cons i l ih =>
      intro h
      unfold computeModel.go
      by_cases hi : bx.length ≤ i
      · have : drealBackend.value (some bx) i = .error .indexError := by
          simp [drealBackend, drealValue, List.getElem?_eq_none hi]
        rw [this]; rfl
      · have : drealBackend.value (some bx) i = .ok (bx[i]'(by omega)).2 := by
          simp [drealBackend, drealValue, List.getElem?_eq_getElem (show i < bx.length by omega)]
        rw [this]
        obtain ⟨j, hj, hjb⟩ := h
        rcases List.mem_cons.1 hj with rfl | hj
        · exact absurd hjb hi
        · simp only [Bind.bind, Except.bind, ih ⟨j, hj, hjb⟩]
  have hc : computeModel drealBackend n (some bx) = .error .indexError :=
    go _ ⟨bx.length, List.mem_range.2 hlt, le_rfl⟩
  simp only [verify, solveGroups, solveGroup, ho, Dict.set, Dict.values]
  simp [drealBackend, drealIsSat, drealIsUnsat, hb, fillCex]
  change (computeModel drealBackend n (some bx)).bind _ = _
  rw [hc]; rfl

/-- Two variables, a query about `x1` alone: the box is `[x1 : 5]`, and the value of `x0` is read from `x1`'s interval before the failure. -/
example : drealBackend.value (some [(1, 5)]) 0 = .ok 5 ∧
    verify drealBackend 2 (fun _ _ _ => 0) (fun _ _ => some [(1, 5)]) [[("lie", .lt (.const 0) (.var 1))]] = .error .indexError :=
  ⟨rfl, C02_dreal_missing_variable_raises 2 _ _ _ _ [(1, 5)] rfl (by decide +kernel) (by decide)⟩

/-- Non-vacuity of the first theorem. -/
example : ∃ cex, verify drealBackend 1 (fun _ _ _ => 0) (fun _ _ => some [(0, 2)]) [[("lie", .lt (.const 0) (.var 0))]] = .ok ⟨false, cex⟩ ∧
    ∃ rows, Dict.get? cex "lie" = some rows ∧ rows ≠ [] := by
  have hb : withinBounds (some [(0, 2)]) = true := by decide +kernel
  refine ⟨[("lie", randomise (fun _ _ => 0) [2])], ?_, _, rfl, by simp [randomise]⟩
  simp [verify, solveGroups, solveGroup, Dict.set, Dict.values, drealBackend, drealIsSat, drealIsUnsat, hb, fillCex, computeModel, computeModel.go, drealValue,
    Bind.bind, Except.bind, pure, Except.pure]

end Fossil

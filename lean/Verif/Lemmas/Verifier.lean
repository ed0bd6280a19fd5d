/- Helper lemmas about the verification loop. -/
import Verif.Verifier

namespace Fossil
variable {R : Type}

theorem solveGroup_fst (o : Oracle R) (k res g) : (solveGroup o k res g).1 = k + g.length := by
  induction g generalizing k res with
  | nil => rfl
  | cons q g ih => obtain ⟨l, φ⟩ := q; simp only [solveGroup, ih, List.length_cons]; omega

theorem solveGroup_append (o : Oracle R) (k res g g') :
    solveGroup o k res (g ++ g') = solveGroup o (solveGroup o k res g).1 (solveGroup o k res g).2 g' := by
  induction g generalizing k res with
  | nil => rfl
  | cons q g ih => obtain ⟨l, φ⟩ := q; simp only [List.cons_append, solveGroup, ih]

/-- The loop processes a prefix of the groups; it stops early only when some result is sat. -/
theorem solveGroups_prefix (B : Backend R) (o : Oracle R) (k res groups) :
    ∃ gs gs', groups = gs ++ gs' ∧ solveGroups B o k res groups = solveGroup o k res gs.flatten ∧
      (gs' = [] ∨ (gs ≠ [] ∧ (solveGroup o k res gs.flatten).2.values.any B.isSat = true)) := by
  induction groups generalizing k res with
  | nil => exact ⟨[], [], rfl, rfl, .inl rfl⟩
  | cons g groups ih =>
    simp only [solveGroups]
    split
    · rename_i h
      exact ⟨[g], groups, rfl, by simp, .inr ⟨by simp, by simpa using h⟩⟩
    · obtain ⟨gs, gs', h1, h2, h3⟩ := ih (solveGroup o k res g).1 (solveGroup o k res g).2
      refine ⟨g :: gs, gs', by simp [h1], ?_, ?_⟩
      · rw [h2, List.flatten_cons, solveGroup_append]
      · rcases h3 with h3 | h3
        · exact .inl h3
        · right; refine ⟨by simp, ?_⟩
          rw [List.flatten_cons, solveGroup_append]; exact h3.2

theorem set_of_not_mem (d : Dict String R) (k : String) (v : R) (h : k ∉ d.keys) :
    d.set k v = d ++ [(k, v)] := by
  induction d with
  | nil => rfl
  | cons p d ih =>
    obtain ⟨a, b⟩ := p
    simp only [Dict.keys, List.map_cons, List.mem_cons, not_or] at h
    simp only [Dict.set, Ne.symm h.1, if_false, List.cons_append]
    rw [ih h.2]

/-- With pairwise distinct labels the results are exactly the answers in query order. -/
theorem solveGroup_nodup (o : Oracle R) (k : ℕ) (res : Dict String R) (g : Dict String Formula)
    (hg : g.keys.Nodup) (hd : ∀ l ∈ g.keys, l ∉ res.keys) :
    (solveGroup o k res g).2 = res ++ g.mapIdx (fun i q => (q.1, o (k + i) q.2)) := by
  induction g generalizing k res with
  | nil => simp [solveGroup]
  | cons q g ih =>
    obtain ⟨l, φ⟩ := q
    simp only [Dict.keys, List.map_cons, List.nodup_cons, List.mem_cons, forall_eq_or_imp] at hg hd
    simp only [solveGroup]
    rw [ih]
    · rw [set_of_not_mem _ _ _ hd.1]
      simp only [List.mapIdx_cons, Nat.add_zero, List.append_assoc, List.singleton_append]
      congr 2
      apply List.ext_getElem
      · simp
      · intro i h1 h2
        simp only [List.getElem_mapIdx]
        rw [show k + 1 + i = k + (i + 1) by omega]
    · exact hg.2
    · intro l' hl'
      rw [Dict.mem_keys_set]
      rintro (rfl | h)
      · exact hg.1 hl'
      · exact hd.2 l' hl' h

/-- In general each label ends with the answer of its last query. -/
theorem solveGroup_get? (o : Oracle R) (k : ℕ) (res : Dict String R) (g : Dict String Formula) (i : ℕ)
    (hi : i < g.length) (hlast : ∀ j (hj : j < g.length), i < j → g[j].1 ≠ g[i].1) :
    (solveGroup o k res g).2.get? g[i].1 = some (o (k + i) g[i].2) := by
  induction g generalizing k res i with
  | nil => simp at hi
  | cons q g ih =>
    obtain ⟨l, φ⟩ := q
    simp only [solveGroup]
    cases i with
    | zero =>
      simp only [List.getElem_cons_zero, Nat.add_zero]
      have hne : l ∉ Dict.keys g := by
        intro hmem
        simp only [Dict.keys, List.mem_map] at hmem
        obtain ⟨q, hq, rfl⟩ := hmem
        obtain ⟨j, hj, rfl⟩ := List.getElem_of_mem hq
        exact hlast (j + 1) (by simpa using hj) (by omega) (by simp)
      clear ih hlast hi
      have : ∀ (k' : ℕ) (res : Dict String R), res.get? l = some (o k φ) →
          (solveGroup o k' res g).2.get? l = some (o k φ) := by
        induction g with
        | nil => intro k' res h; simpa [solveGroup] using h
        | cons q g ih =>
          obtain ⟨l', φ'⟩ := q
          simp only [Dict.keys, List.map_cons, List.mem_cons, not_or] at hne
          intro k' res h
          simp only [solveGroup]
          apply ih (by simpa [Dict.keys] using hne.2)
          rw [Dict.get?_set, if_neg (Ne.symm hne.1)]; exact h
      exact this _ _ (Dict.get?_set_self _ _ _)
    | succ i =>
      have hi' : i < g.length := by simpa using hi
      have := ih (k + 1) (res.set l (o k φ)) i hi' (fun j hj hij => by
        have := hlast (j + 1) (by simpa using hj) (by omega)
        simpa using this)
      simp only [List.getElem_cons_succ]
      rw [this, show k + 1 + i = k + (i + 1) by omega]

theorem keys_solveGroup_subset (o : Oracle R) (k : ℕ) (res : Dict String R) (g : Dict String Formula) :
    ∀ l, l ∈ (solveGroup o k res g).2.keys ↔ l ∈ res.keys ∨ l ∈ g.keys := by
  induction g generalizing k res with
  | nil => simp [solveGroup, Dict.keys]
  | cons q g ih =>
    obtain ⟨l, φ⟩ := q
    intro l'
    simp only [solveGroup, ih, Dict.mem_keys_set]
    simp only [Dict.keys, List.map_cons, List.mem_cons]
    tauto

/-- Every result recorded is the answer to some query with that label. -/
theorem mem_solveGroup (o : Oracle R) (k : ℕ) (res : Dict String R) (g : Dict String Formula) :
    ∀ p ∈ (solveGroup o k res g).2, p ∈ res ∨
      ∃ i, ∃ h : i < g.length, p = (g[i].1, o (k + i) g[i].2) := by
  induction g generalizing k res with
  | nil => intro p hp; exact .inl hp
  | cons q g ih =>
    obtain ⟨l, φ⟩ := q
    intro p hp
    simp only [solveGroup] at hp
    rcases ih _ _ p hp with h | ⟨i, hi, rfl⟩
    · have : p ∈ res ∨ p = (l, o k φ) := by
        clear hp ih
        induction res with
        | nil => simp [Dict.set] at h; exact .inr h
        | cons a res ih =>
          obtain ⟨a1, a2⟩ := a
          simp only [Dict.set] at h
          split at h
          · rename_i e
            subst e
            simp only [List.mem_cons] at h ⊢
            tauto
          · simp only [List.mem_cons] at h ⊢
            rcases h with h | h
            · exact .inl (.inl h)
            · rcases ih h with h | h
              · exact .inl (.inr h)
              · exact .inr h
      rcases this with h | h
      · exact .inl h
      · right; exact ⟨0, by simp, by simpa using h⟩
    · right
      exact ⟨i + 1, by simpa using hi, by simp [show k + 1 + i = k + (i + 1) by omega]⟩

theorem computeModel_go_eq (B : Backend R) (r : R) (is : List ℕ) (pt : List ℚ)
    (h : computeModel.go B r is = .ok pt) : List.Forall₂ (fun i v => B.value r i = .ok v) is pt := by
  induction is generalizing pt with
  | nil => simp [computeModel.go] at h; subst h; exact .nil
  | cons i is ih =>
    simp only [computeModel.go, bind, Except.bind] at h
    split at h
    · cases h
    · rename_i v hv
      split at h
      · cases h
      · rename_i vs hvs
        simp only [pure, Except.pure, Except.ok.injEq] at h
        subst h
        exact .cons hv (ih vs hvs)

theorem computeModel_spec (B : Backend R) (n : ℕ) (r : R) (pt : List ℚ) (h : computeModel B n r = .ok pt) :
    pt.length = n ∧ ∀ i (hi : i < pt.length), B.value r i = .ok pt[i] := by
  have := computeModel_go_eq B r _ pt h
  rw [List.forall₂_iff_get] at this
  obtain ⟨h1, h2⟩ := this
  refine ⟨by simpa using h1.symm, fun i hi => ?_⟩
  have := h2 i (h1 ▸ hi) hi
  simpa using this

/-- `fillCex` only changes the entries of satisfiable labels. -/
theorem fillCex_get? (B : Backend R) (n : ℕ) (noise) (results : Dict String R)
    (ces ces' : Dict String (List (List ℚ))) (hnd : results.keys.Nodup)
    (h : fillCex B n noise results ces = .ok ces') :
    (∀ l, l ∉ results.keys → ces'.get? l = ces.get? l) ∧
    ∀ p ∈ results, if B.isSat p.2 then ∃ pt, computeModel B n p.2 = .ok pt ∧
      ces'.get? p.1 = some (randomise (noise p.1) pt) else ces'.get? p.1 = ces.get? p.1 := by
  induction results generalizing ces with
  | nil => simp only [fillCex, Except.ok.injEq] at h; subst h; simp
  | cons q results ih =>
    obtain ⟨l, r⟩ := q
    simp only [Dict.keys, List.map_cons, List.nodup_cons] at hnd
    simp only [fillCex] at h
    by_cases hs : B.isSat r
    · simp only [hs, if_true, bind, Except.bind] at h
      split at h
      · cases h
      · rename_i pt hpt
        obtain ⟨h1, h2⟩ := ih _ hnd.2 h
        refine ⟨?_, ?_⟩
        · intro l' hl'
          simp only [Dict.keys, List.map_cons, List.mem_cons, not_or] at hl'
          rw [h1 l' hl'.2, Dict.get?_set, if_neg (Ne.symm hl'.1)]
        · intro p hp
          simp only [List.mem_cons] at hp
          rcases hp with rfl | hp
          · simp only [hs, if_true]
            exact ⟨pt, hpt, by rw [h1 l hnd.1, Dict.get?_set_self]⟩
          · have := h2 p hp
            have hne : l ≠ p.1 := by
              rintro rfl
              exact hnd.1 (List.mem_map_of_mem (f := Prod.fst) hp)
            split
            · rename_i h3; rw [if_pos h3] at this; exact this
            · rename_i h3; rw [if_neg h3] at this
              rw [this, Dict.get?_set, if_neg hne]
    · simp only [hs] at h
      obtain ⟨h1, h2⟩ := ih _ hnd.2 h
      refine ⟨?_, ?_⟩
      · intro l' hl'
        simp only [Dict.keys, List.map_cons, List.mem_cons, not_or] at hl'
        exact h1 l' hl'.2
      · intro p hp
        simp only [List.mem_cons] at hp
        rcases hp with rfl | hp
        · simp only [hs]
          exact h1 l hnd.1
        · exact h2 p hp

theorem fillCex_keys (B : Backend R) (n : ℕ) (noise) (results : Dict String R)
    (ces ces' : Dict String (List (List ℚ))) (hsub : ∀ l ∈ results.keys, l ∈ ces.keys)
    (h : fillCex B n noise results ces = .ok ces') : ces'.keys = ces.keys := by
  induction results generalizing ces with
  | nil => simp only [fillCex, Except.ok.injEq] at h; subst h; rfl
  | cons q results ih =>
    obtain ⟨l, r⟩ := q
    simp only [Dict.keys, List.map_cons, List.mem_cons, forall_eq_or_imp] at hsub
    simp only [fillCex] at h
    have hk : ∀ v, (Dict.set ces l v).keys = ces.keys := fun v => by
      rw [Dict.keys_set]; exact if_pos hsub.1
    by_cases hs : B.isSat r
    · simp only [hs, if_true, bind, Except.bind] at h
      split at h
      · cases h
      · rw [ih _ (fun l' hl' => by rw [hk]; exact hsub.2 l' hl') h, hk]
    · simp only [hs] at h
      exact ih _ (fun l' hl' => hsub.2 l' hl') h

theorem length_randomise (noise) (pt : List ℚ) : (randomise noise pt).length = 21 := by
  simp [randomise]

theorem getLast?_randomise (noise) (pt : List ℚ) : (randomise noise pt).getLast? = some pt := by
  simp [randomise]

end Fossil

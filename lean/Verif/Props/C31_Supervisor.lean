/- C31: the parallel supervisor, for every interleaving of workers and supervisor. -/
import Verif.Supervisor
import Mathlib.Data.List.Basic
import Mathlib.Data.List.Nodup
import Mathlib.Data.Finset.Card
import Mathlib.Tactic

namespace Fossil

variable {α : Type} {maxP base : ℕ} {hasClean : Bool} {produces : ℕ → WResult α → Prop}

/-- The results put on the queue in a history, in order. -/
def puts : List (SupEvent α) → List (ℕ × WResult α)
  | [] => []
  | .put i r :: evs => (i, r) :: puts evs
  | _ :: evs => puts evs

theorem puts_append (a b : List (SupEvent α)) : puts (a ++ b) = puts a ++ puts b := by
  induction a with
  | nil => rfl
  | cons e a ih => cases e <;> simp [puts, ih]

theorem mem_puts {evs : List (SupEvent α)} {i : ℕ} {r : WResult α} : (i, r) ∈ puts evs ↔ SupEvent.put i r ∈ evs := by
  induction evs with
  | nil => simp [puts]
  | cons e evs ih => cases e <;> simp [puts, ih]

/-- What is invariant along every execution. -/
structure SupInv (maxP base : ℕ) (produces : ℕ → WResult α → Prop) (evs : List (SupEvent α)) (s : Sup α) : Prop where
  started_le : s.started ≤ maxP
  notStarted : ∀ i, s.started ≤ i → s.status i = .notStarted
  nodup : ((puts evs).map Prod.fst).Nodup
  finished : ∀ i, s.status i = .finished ↔ ∃ r, (i, r) ∈ puts evs
  produced : ∀ i r, (i, r) ∈ puts evs → i < maxP ∧ produces (base + i) r
  crashed : ∀ i, SupEvent.crash i ∈ evs → s.status i = .crashed
  history : ∃ got, puts evs = got ++ s.queue ∧ match s.ret with
    | none => (∀ m ∈ got, m.2.res = false) ∧ s.nRes = got.length ∧ (got.length < maxP ∨ got = [])
    | some m => ∃ got', got = got' ++ [m] ∧ (∀ m' ∈ got', m'.2.res = false) ∧
        (m.2.res = true ∨ got.length = maxP)

theorem supInv {evs : List (SupEvent α)} {s : Sup α} (h : SupExec maxP base hasClean produces evs s) :
    SupInv maxP base produces evs s := by
  induction h with
  | init =>
    refine ⟨Nat.zero_le _, fun _ _ => rfl, by simp [puts], ?_, by simp [puts], by simp, [], rfl, ?_⟩
    · intro i; simp [Sup.init, puts]
    · simp [Sup.init]
  | @step evs s ev s' _ hstep ih =>
    obtain ⟨h1, h2, h3, h4, h5, h6, got, h7, h8⟩ := ih
    cases hstep with
    | start hr hlt =>
      have hp : puts (evs ++ [SupEvent.start s.started]) = puts evs := by simp [puts_append, puts]
      refine ⟨hlt, ?_, by rwa [hp], ?_, by rwa [hp], ?_, got, by rw [hp]; exact h7, h8⟩
      · intro i hi
        have : i ≠ s.started := by simp at hi; omega
        simp only [Sup.setStatus, this, if_false]
        exact h2 i (by simp at hi; omega)
      · intro i
        rw [hp, ← h4 i]
        simp only [Sup.setStatus]
        by_cases e : i = s.started
        · subst e; simp [h2 s.started le_rfl]
        · simp [e]
      · intro i hi
        have hi : SupEvent.crash i ∈ evs := by simpa using hi
        have := h6 i hi
        simp only [Sup.setStatus]
        by_cases e : i = s.started
        · subst e; rw [h2 s.started le_rfl] at this; cases this
        · simp [e, this]
    | put i r m hr hrun hprod hf =>
      have hm : m = (i, r) := by
        unfold workerFinish at hf; split at hf <;> cases hf; rfl
      subst hm
      have hp : puts (evs ++ [SupEvent.put i r]) = puts evs ++ [(i, r)] := by simp [puts_append, puts]
      have hfresh : ∀ r', (i, r') ∉ puts evs := fun r' hr' => by
        have := (h4 i).2 ⟨r', hr'⟩; rw [hrun] at this; cases this
      have hi : i < s.started := by
        by_contra hc
        have := h2 i (by omega); rw [hrun] at this; cases this
      refine ⟨h1, ?_, ?_, ?_, ?_, ?_, got, ?_, ?_⟩
      · intro j hj
        have : j ≠ i := by simp [Sup.setStatus] at hj; omega
        simp only [Sup.setStatus, this, if_false]
        exact h2 j hj
      · rw [hp, List.map_append, List.nodup_append]
        refine ⟨h3, by simp, ?_⟩
        intro a ha b hb e
        simp only [List.map_cons, List.map_nil, List.mem_singleton] at hb
        subst hb; subst e
        obtain ⟨⟨i', r'⟩, hmem, rfl⟩ := List.mem_map.1 ha
        exact hfresh r' hmem
      · intro j
        simp only [Sup.setStatus, hp, List.mem_append, List.mem_singleton, Prod.mk.injEq]
        by_cases e : j = i
        · subst e; simp
        · simp only [e, if_false, false_and, or_false]; exact h4 j
      · intro j r' hj
        rw [hp, List.mem_append, List.mem_singleton] at hj
        rcases hj with hj | hj
        · exact h5 j r' hj
        · cases hj; exact ⟨by omega, hprod⟩
      · intro j hj
        have hj : SupEvent.crash j ∈ evs := by simpa using hj
        have := h6 j hj
        simp only [Sup.setStatus]
        by_cases e : j = i
        · subst e; rw [hrun] at this; cases this
        · simp [e, this]
      · simp [hp, h7]
      · exact h8
    | crash i hr hrun =>
      have hp : puts (evs ++ [SupEvent.crash i]) = puts evs := by simp [puts_append, puts]
      refine ⟨h1, ?_, by rwa [hp], ?_, by rwa [hp], ?_, got, by rw [hp]; exact h7, h8⟩
      · intro j hj
        have hji : j ≠ i := by
          rintro rfl; have := h2 j hj; rw [hrun] at this; cases this
        simp only [Sup.setStatus, hji, if_false]
        exact h2 j hj
      · intro j
        rw [hp, ← h4 j]
        simp only [Sup.setStatus]
        by_cases e : j = i
        · subst e; simp [hrun]
        · simp [e]
      · intro j hj
        simp only [List.mem_append, List.mem_singleton, SupEvent.crash.injEq] at hj
        simp only [Sup.setStatus]
        by_cases e : j = i
        · simp [e]
        · simp only [e, if_false]
          exact h6 j (hj.resolve_right e)
    | poll hr hst =>
      have hp : puts (evs ++ [SupEvent.poll]) = puts evs := by simp [puts_append, puts]
      have hc : ∀ i, SupEvent.crash i ∈ evs ++ [SupEvent.poll] → SupEvent.crash i ∈ evs := by
        intro i hi; simpa using hi
      simp only [hr] at h8
      obtain ⟨h8a, h8b, h8c⟩ := h8
      unfold Sup.poll
      rcases hq : s.queue with _ | ⟨m, q⟩
      · refine ⟨h1, h2, by rwa [hp], by rwa [hp], by rwa [hp], fun i hi => h6 i (hc i hi), got, ?_, ?_⟩
        · rw [hp, h7]
        · simp only [hr]; exact ⟨h8a, h8b, h8c⟩
      · have hgot : puts evs = (got ++ [m]) ++ q := by rw [h7, hq]; simp
        by_cases hm : m.2.res = true
        · simp only [hm, if_true]
          refine ⟨h1, h2, by rwa [hp], by rwa [hp], by rwa [hp], fun i hi => h6 i (hc i hi), got ++ [m], ?_, ?_⟩
          · rw [hp, hgot]
          · exact ⟨got, rfl, h8a, Or.inl hm⟩
        · simp only [hm]
          simp only [Bool.not_eq_true] at hm
          by_cases hn : s.nRes + 1 = maxP
          · simp only [hn, if_true, Bool.false_eq_true, if_false]
            refine ⟨h1, h2, by rwa [hp], by rwa [hp], by rwa [hp], fun i hi => h6 i (hc i hi), got ++ [m], ?_, ?_⟩
            · rw [hp, hgot]
            · exact ⟨got, rfl, h8a, Or.inr (by simp; omega)⟩
          · simp only [hn, if_false, Bool.false_eq_true]
            refine ⟨h1, h2, by rwa [hp], by rwa [hp], by rwa [hp], fun i hi => h6 i (hc i hi), got ++ [m], ?_, ?_⟩
            · rw [hp, hgot]
            · simp only [hr]
              refine ⟨?_, by simp [h8b], ?_⟩
              · intro m' hm'
                rcases List.mem_append.1 hm' with h | h
                · exact h8a m' h
                · simp only [List.mem_singleton] at h; subst h; exact hm
              · left
                have hlen : ((puts evs).map Prod.fst).length ≤ maxP := by
                  have hsub : ((puts evs).map Prod.fst).toFinset ⊆ Finset.range maxP := by
                    intro a ha
                    obtain ⟨⟨i, r⟩, hmem, rfl⟩ := List.mem_map.1 (List.mem_toFinset.1 ha)
                    exact Finset.mem_range.2 (h5 i r hmem).1
                  have := Finset.card_le_card hsub
                  rwa [List.toFinset_card_of_nodup h3, Finset.card_range] at this
                rw [hgot] at hlen
                simp only [List.map_append, List.length_append, List.length_map, List.length_singleton] at hlen
                have : (got ++ [m]).length = s.nRes + 1 := by simp [h8b]
                simp only [List.length_append, List.length_singleton] at this ⊢
                omega

/-- **C31 (partial), origin.** Whatever the interleaving, a result returned by `solve` was put on the queue by one of the
`max_P` workers, and is a result a CEGIS run with that worker's seed `base + id` can produce. -/
theorem C31_result_from_worker_partial (evs : List (SupEvent α)) (s : Sup α)
    (h : SupExec maxP base hasClean produces evs s) (i : ℕ) (r : WResult α) (hret : s.ret = some (i, r)) :
    SupEvent.put i r ∈ evs ∧ i < maxP ∧ produces (base + i) r := by
  obtain ⟨-, -, -, -, h5, -, got, h7, h8⟩ := supInv h
  rw [hret] at h8
  obtain ⟨got', rfl, -, -⟩ := h8
  have hm : (i, r) ∈ puts evs := by rw [h7]; simp
  exact ⟨mem_puts.1 hm, h5 i r hm⟩

/-- **C31 (partial), verdict.** A returned failure means that every one of the `max_P` workers reported failure; and the
returned result is a success exactly when some worker reported success. -/
theorem C31_failure_only_after_all_failed_partial (evs : List (SupEvent α)) (s : Sup α)
    (h : SupExec maxP base hasClean produces evs s) (m : ℕ × WResult α) (hret : s.ret = some m) :
    (m.2.res = false → ∀ i < maxP, ∃ r, SupEvent.put i r ∈ evs ∧ r.res = false) ∧
    (m.2.res = true ↔ ∃ i r, SupEvent.put i r ∈ evs ∧ r.res = true) := by
  obtain ⟨-, -, h3, -, h5, -, got, h7, h8⟩ := supInv h
  rw [hret] at h8
  obtain ⟨got', rfl, h8a, h8b⟩ := h8
  have key : m.2.res = false → ∀ i < maxP, ∃ r, SupEvent.put i r ∈ evs ∧ r.res = false := by
    intro hm i hi
    have hlen : (got' ++ [m]).length = maxP := by
      rcases h8b with h | h
      · rw [hm] at h; cases h
      · exact h
    have hnd : ((got' ++ [m]).map Prod.fst).Nodup := by
      rw [h7, List.map_append] at h3
      exact (List.nodup_append.1 h3).1
    have hsub : ((got' ++ [m]).map Prod.fst).toFinset ⊆ Finset.range maxP := by
      intro a ha
      obtain ⟨⟨j, r⟩, hmem, rfl⟩ := List.mem_map.1 (List.mem_toFinset.1 ha)
      exact Finset.mem_range.2 (h5 j r (by rw [h7]; exact List.mem_append_left _ hmem)).1
    have heq := Finset.eq_of_subset_of_card_le hsub (by
      rw [List.toFinset_card_of_nodup hnd, Finset.card_range, List.length_map, hlen])
    have hmem : i ∈ ((got' ++ [m]).map Prod.fst).toFinset := by rw [heq]; exact Finset.mem_range.2 hi
    obtain ⟨⟨j, r⟩, hmem2, rfl⟩ := List.mem_map.1 (List.mem_toFinset.1 hmem)
    refine ⟨r, mem_puts.1 (by rw [h7]; exact List.mem_append_left _ hmem2), ?_⟩
    rcases List.mem_append.1 hmem2 with h | h
    · exact h8a _ h
    · simp only [List.mem_singleton] at h; subst h; exact hm
  refine ⟨key, ?_, ?_⟩
  · intro hm
    exact ⟨m.1, m.2, mem_puts.1 (by rw [h7]; simp), hm⟩
  · rintro ⟨i, r, hput, hr⟩
    by_contra hm
    simp only [Bool.not_eq_true] at hm
    have hi := h5 i r (mem_puts.2 hput)
    obtain ⟨r', hput', hr'⟩ := key hm i hi.1
    have hnd := h3
    have : r = r' := by
      have h1 := mem_puts.2 hput
      have h2 := mem_puts.2 hput'
      exact (List.inj_on_of_nodup_map hnd h1 h2 rfl) |> fun e => (Prod.mk.inj e).2
    rw [this, hr'] at hr; cases hr

/-- **C31 (partial), progress.** Once all workers have put a result, or some success is waiting in the queue, polling returns
after at most as many polls as there are waiting results. -/
theorem C31_polling_returns_partial (hP : 0 < maxP) (evs : List (SupEvent α)) (s : Sup α)
    (h : SupExec maxP base hasClean produces evs s) (hret : s.ret = none)
    (hdone : (∀ i < maxP, ∃ r, SupEvent.put i r ∈ evs) ∨ ∃ m ∈ s.queue, m.2.res = true) :
    ∃ k ≤ s.queue.length, ((Sup.poll maxP)^[k] s).ret.isSome = true := by
  obtain ⟨-, -, h3, -, h5, -, got, h7, h8⟩ := supInv h
  rw [hret] at h8
  obtain ⟨-, h8b, h8c⟩ := h8
  have hq : s.nRes + s.queue.length = maxP ∧ s.nRes < maxP ∨ ∃ m ∈ s.queue, m.2.res = true := by
    rcases hdone with hd | hd
    · left
      have hsub : Finset.range maxP ⊆ ((puts evs).map Prod.fst).toFinset := by
        intro i hi
        obtain ⟨r, hr⟩ := hd i (Finset.mem_range.1 hi)
        exact List.mem_toFinset.2 (List.mem_map.2 ⟨_, mem_puts.2 hr, rfl⟩)
      have hsub' : ((puts evs).map Prod.fst).toFinset ⊆ Finset.range maxP := by
        intro a ha
        obtain ⟨⟨j, r⟩, hmem, rfl⟩ := List.mem_map.1 (List.mem_toFinset.1 ha)
        exact Finset.mem_range.2 (h5 j r hmem).1
      have e := congrArg Finset.card (Finset.Subset.antisymm hsub hsub')
      rw [List.toFinset_card_of_nodup h3, Finset.card_range, List.length_map, h7, List.length_append] at e
      rcases h8c with h | h
      · omega
      · subst h; simp at h8b e; omega
    · exact Or.inr hd
  clear h3 h5 h7 h8b h8c hdone h
  generalize hL : s.queue.length = L
  induction L generalizing s with
  | zero =>
    rcases hq with h | ⟨m, hm, -⟩
    · omega
    · rw [List.length_eq_zero_iff.1 hL] at hm; simp at hm
  | succ L ih =>
    obtain ⟨m, q, hmq⟩ : ∃ m q, s.queue = m :: q := by
      cases hs : s.queue with
      | nil => rw [hs] at hL; simp at hL
      | cons m q => exact ⟨m, q, rfl⟩
    have hqL : q.length = L := by rw [hmq] at hL; simpa using hL
    by_cases hm : m.2.res = true
    · exact ⟨1, by omega, by simp [Sup.poll, hmq, hm]⟩
    · by_cases hn : s.nRes + 1 = maxP
      · exact ⟨1, by omega, by simp [Sup.poll, hmq, hm, hn]⟩
      · have e : s.poll maxP = { s with queue := q, nRes := s.nRes + 1 } := by simp [Sup.poll, hmq, hm, hn]
        obtain ⟨k, hk, hk'⟩ := ih (s.poll maxP) (by rw [e]; exact hret) (by
          rw [e]
          rcases hq with h | ⟨m', hm', hr'⟩
          · left; rw [hmq] at h; simp at h ⊢; omega
          · right
            rw [hmq] at hm'
            rcases List.mem_cons.1 hm' with rfl | h
            · exact absurd hr' hm
            · exact ⟨m', h, hr'⟩) (by rw [e]; exact hqL)
        exact ⟨k + 1, by omega, by rw [Function.iterate_succ_apply]; exact hk'⟩

/-- **The full statement fails for the code as it is**: `CertificateSolution` has no `clean` method, so every worker dies before
putting its result, and `solve` never returns - in no execution, for no number of workers, even if every CEGIS run succeeds. -/
theorem C31_supervisor_never_returns (evs : List (SupEvent α)) (s : Sup α)
    (h : SupExec maxP base certHasClean produces evs s) : s.ret = none ∧ s.queue = [] := by
  induction h with
  | init => exact ⟨rfl, rfl⟩
  | step _ hstep ih =>
    cases hstep with
    | start => exact ih
    | put i r m hr hrun hprod hf => simp [workerFinish, certHasClean] at hf
    | crash => exact ih
    | poll => simp [Sup.poll, ih.2, ih.1]

/-- More generally a single worker that dies without a result makes `solve` run forever unless another one succeeds. -/
theorem C31_crash_without_success_never_returns (evs : List (SupEvent α)) (s : Sup α)
    (h : SupExec maxP base hasClean produces evs s) (i : ℕ) (hi : i < maxP) (hcrash : SupEvent.crash i ∈ evs)
    (hno : ∀ j r, SupEvent.put j r ∈ evs → r.res = false) : s.ret = none := by
  by_contra hne
  obtain ⟨m, hm⟩ := Option.ne_none_iff_exists'.1 hne
  obtain ⟨h1, h2⟩ := C31_failure_only_after_all_failed_partial evs s h m hm
  have hf : m.2.res = false := by
    by_contra hc
    obtain ⟨j, r, hput, hr⟩ := h2.1 (by simpa using hc)
    rw [hno j r hput] at hr; cases hr
  obtain ⟨r, hput, -⟩ := h1 hf i hi
  obtain ⟨-, -, -, h4, -, h6, -⟩ := supInv h
  have a := h6 i hcrash
  have b := (h4 i).2 ⟨r, mem_puts.2 hput⟩
  rw [a] at b; cases b

/-- Non-vacuity: with a certificate object that can be cleaned, two workers and the schedule below, the failure of worker 0 is
counted and the success of worker 1 returned. -/
example : ∃ (evs : List (SupEvent Unit)) (s : Sup Unit),
    SupExec 2 7 true (fun seed r => r.res = decide (seed = 8)) evs s ∧ s.ret = some (1, ⟨true, ()⟩) := by
  have e0 := SupExec.init (α := Unit) (maxP := 2) (base := 7) (hasClean := true)
    (produces := fun seed r => r.res = decide (seed = 8))
  have e1 := e0.step (SupStep.start _ rfl (by decide))
  have e2 := e1.step (SupStep.start _ rfl (by decide))
  have e3 := e2.step (SupStep.put _ 0 ⟨false, ()⟩ _ rfl (by rfl) (by decide) rfl)
  have e4 := e3.step (SupStep.poll _ rfl rfl)
  have e5 := e4.step (SupStep.put _ 1 ⟨true, ()⟩ _ rfl (by rfl) (by decide) rfl)
  have e6 := e5.step (SupStep.poll _ rfl rfl)
  exact ⟨_, _, e6, rfl⟩

/-- Non-vacuity of the crash theorems: the run in which the only worker dies in `clean`. -/
example : ∃ (evs : List (SupEvent Unit)) (s : Sup Unit),
    SupExec 1 0 certHasClean (fun _ r => r.res = true) evs s ∧ SupEvent.crash 0 ∈ evs := by
  have e0 := SupExec.init (α := Unit) (maxP := 1) (base := 0) (hasClean := certHasClean)
    (produces := fun _ r => r.res = true)
  have e1 := e0.step (SupStep.start _ rfl (by decide))
  have e2 := e1.step (SupStep.crash _ 0 rfl rfl)
  exact ⟨_, _, e2, by simp⟩

end Fossil

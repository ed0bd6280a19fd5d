/- C61: seeds and reproducibility. -/
import Verif.Seeds
import Verif.Props.C31_Supervisor

namespace Fossil

variable {V ρ : Type} (stream : ℕ → ℕ → V)

theorem RProg.run_bind {ρ' : Type} (p : RProg V ρ) (f : ρ → RProg V ρ') (g : Gen) :
    (p.bind f).run stream g = (f (p.run stream g).1).run stream (p.run stream g).2 := by
  induction p generalizing g with
  | ret r => rfl
  | draw k ih => exact ih _ _
  | initialSeed k ih => exact ih _ _

/-- Drawing never changes the seed that `initial_seed` reports. -/
theorem RProg.run_seed (p : RProg V ρ) (g : Gen) : (p.run stream g).2.seed = g.seed := by
  induction p generalizing g with
  | ret r => rfl
  | draw k ih => exact ih _ _
  | initialSeed k ih => exact ih _ _

theorem cegisProgram_run (body : RProg V ρ) (g : Gen) :
    (cegisProgram body).run stream g = (((body.run stream g).1, g.seed), (body.run stream g).2) := by
  unfold cegisProgram
  rw [RProg.run_bind]
  simp only [RProg.run]
  rw [RProg.run_seed]

/-- **C61, a given seed.** With SEED given, the outcome does not depend on what the process did before, the recorded seed is the given one,
and calling `synthesise` again with the recorded seed, in any process, gives the same outcome. -/
theorem C61_seed_reproduces (body : RProg V ρ) (s : ℕ) (g g' : Gen) :
    (synthesiseSeeded stream (some s) body g).1.2 = s ∧
    (synthesiseSeeded stream (some (synthesiseSeeded stream (some s) body g).1.2) body g').1 =
      (synthesiseSeeded stream (some s) body g).1 := by
  simp only [synthesiseSeeded, cegisProgram_run]
  exact ⟨rfl, rfl⟩

/-- **C61, no seed given, fresh process.** Without SEED the recorded seed still reproduces the outcome if nothing was drawn before. -/
theorem C61_fresh_process_reproduces (body : RProg V ρ) (s : ℕ) (g' : Gen) :
    (synthesiseSeeded stream (some (synthesiseSeeded stream none body (manualSeed s)).1.2) body g').1 =
      (synthesiseSeeded stream none body (manualSeed s)).1 := by
  simp only [synthesiseSeeded, cegisProgram_run]
  rfl

/-- Does the recorded seed reproduce the outcome of a second unseeded `synthesise` in the same process? -/
def SecondRunReproduces (V ρ : Type) : Prop :=
  ∀ (stream : ℕ → ℕ → V) (body : RProg V ρ) (g g' : Gen),
    let first := synthesiseSeeded stream none body g
    let second := synthesiseSeeded stream none body first.2
    (synthesiseSeeded stream (some second.1.2) body g').1 = second.1

/-- A run that draws one number and returns it. -/
def exDrawOne : RProg ℕ ℕ := .draw fun v => .ret v

/-- **C61, negation.** Without SEED the second run of a process records the seed of the first, which does not reproduce it. -/
theorem C61_unseeded_second_run_not_reproducible : ¬ SecondRunReproduces ℕ ℕ := by
  intro h
  have := h (fun _ i => i) exDrawOne (manualSeed 0) (manualSeed 0)
  simp [synthesiseSeeded, cegisProgram, exDrawOne, RProg.bind, RProg.run, manualSeed] at this

theorem benchmarkLoop_results (body : RProg V ρ) (is : List ℕ) (g : Gen) :
    (benchmarkLoop stream body is g).1 = is.map fun i => ((cegisProgram body).run stream (manualSeed (repeatSeed i))).1 := by
  induction is generalizing g with
  | nil => rfl
  | cons i is ih => simp only [benchmarkLoop, List.map_cons, ih]

/-- **C61, benchmarks.** `run_benchmark` with `repeat = n` gives exactly `n` results; result `i` is what `synthesise` gives for the seed
`167 + 4 i` in any process, so it depends neither on the number of repetitions nor on the earlier ones, and that seed is recorded with it. -/
theorem C61_benchmark_repetitions (body : RProg V ρ) (n : ℕ) (g : Gen) :
    (runBenchmark stream body n g).1.length = n ∧
    ∀ i < n, ∀ g' : Gen, ∃ r, (runBenchmark stream body n g).1[i]? = some r ∧
      r = (synthesiseSeeded stream (some (167 + 4 * i)) body g').1 ∧ r.2 = 167 + 4 * i := by
  unfold runBenchmark
  rw [benchmarkLoop_results]
  refine ⟨by simp, fun i hi g' => ⟨_, by simp [hi]; rfl, ?_, ?_⟩⟩
  · simp only [synthesiseSeeded, repeatSeed, baseSeed, nProcs, Nat.mul_comm]
  · rw [cegisProgram_run]
    simp only [manualSeed, repeatSeed, baseSeed, nProcs]; omega

/-- The documentation: repetitions run "over consecutive seeds". -/
def ConsecutiveSeeds (V ρ : Type) : Prop :=
  ∀ (stream : ℕ → ℕ → V) (body : RProg V ρ) (n : ℕ) (g : Gen) (i : ℕ) (r r' : ρ × ℕ),
    (runBenchmark stream body n g).1[i]? = some r → (runBenchmark stream body n g).1[i + 1]? = some r' → r'.2 = r.2 + 1

/-- **C61, negation.** Without `concurrent` the seeds are four apart. -/
theorem C61_seeds_not_consecutive : ¬ ConsecutiveSeeds ℕ ℕ := by
  intro h
  have := h (fun _ i => i) exDrawOne 2 (manualSeed 0) 0 (0, 167) (0, 171) (by decide +kernel) (by decide +kernel)
  simp at this

/-- **C61, parallel seeds.** Over all repetitions of `run_benchmark(..., repeat = n, concurrent = True)` the workers use exactly the seeds
`167, …, 167 + 4 n - 1`, and no two workers use the same one. -/
theorem C61_parallel_seeds (n s : ℕ) :
    (167 ≤ s ∧ s < 167 + 4 * n) ↔ ∃! p : ℕ × ℕ, p.1 < n ∧ p.2 < nProcs ∧ workerSeed p.1 p.2 = s := by
  simp only [workerSeed, repeatSeed, baseSeed, nProcs]
  constructor
  · rintro ⟨h1, h2⟩
    refine ⟨((s - 167) / 4, (s - 167) % 4), ⟨by dsimp only; omega, Nat.mod_lt _ (by norm_num), by dsimp only; omega⟩, ?_⟩
    rintro ⟨a, b⟩ ⟨ha, hb, hab⟩
    dsimp only at ha hb hab
    refine Prod.ext ?_ ?_ <;> dsimp only <;> omega
  · rintro ⟨p, ⟨h1, h2, h3⟩, -⟩
    omega

theorem startEvents {α : Type} {maxP base : ℕ} {hasClean : Bool} {produces : ℕ → WResult α → Prop} {evs : List (SupEvent α)} {s : Sup α}
    (h : SupExec maxP base hasClean produces evs s) (j : ℕ) : SupEvent.start j ∈ evs → j < s.started := by
  induction h with
  | init => simp
  | @step evs s ev s' _ hs ih =>
    intro hm
    rcases List.mem_append.1 hm with hm | hm
    · have := ih hm
      cases hs <;> simp [Sup.setStatus, Sup.poll] <;> first | omega | (split <;> [skip; (split <;> [skip; split])] <;> exact this)
    · rw [List.mem_singleton] at hm
      subst hm
      cases hs
      simp

/-- **C61, started workers.** Whatever the interleaving, the workers a repetition starts have ids below four, so their seeds are those counted
in `C61_parallel_seeds`. -/
theorem C61_started_workers {α : Type} {hasClean : Bool} {produces : ℕ → WResult α → Prop} (i : ℕ)
    (evs : List (SupEvent α)) (s : Sup α) (h : SupExec nProcs (repeatSeed i) hasClean produces evs s) (j : ℕ)
    (hj : SupEvent.start j ∈ evs) : j < nProcs ∧ workerSeed i j = repeatSeed i + j :=
  ⟨lt_of_lt_of_le (startEvents h j hj) (supInv h).started_le, rfl⟩

/-- **C61, parallel outcome.** If the supervisor of repetition `i` returns a result, then for every interleaving it is the result of
`synthesise` with the recorded seed, which is one of the four seeds of that repetition. (That it returns at all needs `clean` to exist on the
certificate object: `C31_supervisor_never_returns`.) -/
theorem C61_parallel_result_reproducible (body : RProg V (Bool × ρ)) (hasClean : Bool) (i : ℕ)
    (evs : List (SupEvent (ρ × ℕ))) (s : Sup (ρ × ℕ))
    (h : SupExec nProcs (repeatSeed i) hasClean (producesSeeded stream body) evs s) (id : ℕ) (r : WResult (ρ × ℕ))
    (hret : s.ret = some (id, r)) (g : Gen) :
    r.body.2 = 167 + 4 * i + id ∧ id < 4 ∧
    (synthesiseSeeded stream (some r.body.2) body g).1 = ((r.res, r.body.1), r.body.2) := by
  obtain ⟨-, h2, h3⟩ := C31_result_from_worker_partial evs s h id r hret
  have h4 := h3
  simp only [producesSeeded] at h4
  rw [cegisProgram_run] at h4
  have h5 : r.body.2 = repeatSeed i + id := (congrArg Prod.snd h4).symm
  refine ⟨?_, h2, ?_⟩
  · rw [h5]; simp only [repeatSeed, baseSeed, nProcs]; omega
  · rw [h5]
    simp only [synthesiseSeeded]
    rw [h3, h5]

/-- Non-vacuity: a run that draws two numbers, with a stream that depends on the seed; its two repetitions. -/
def exDrawTwo : RProg ℕ ℕ := .draw fun v => .draw fun w => .ret (10 * v + w)

example : (runBenchmark (fun s i => s + i) exDrawTwo 2 (manualSeed 5)).1 = [(1838, 167), (1882, 171)] := by decide +kernel

/-- Non-vacuity of `C61_parallel_result_reproducible`: with `clean` available, four workers start, worker 2 succeeds and is returned. -/
def exDrawBool : RProg ℕ (Bool × ℕ) := .draw fun v => .ret (decide (v = 169), v)

example : ∃ evs s, SupExec nProcs (repeatSeed 0) true (producesSeeded (fun s i => s + i) exDrawBool) evs s ∧
    s.ret = some (2, ⟨true, (169, 169)⟩) := by
  refine ⟨_, _, .step (.step (.step (.step (.step (.step .init
    (.start _ rfl (by decide))) (.start _ rfl (by decide))) (.start _ rfl (by decide))) (.start _ rfl (by decide)))
    (.put _ 2 ⟨true, (169, 169)⟩ _ rfl rfl ?_ rfl)) (.poll _ rfl rfl), rfl⟩
  simp only [producesSeeded]
  decide +kernel

end Fossil

/-
Model of how the random number generator is seeded: /repo/fossil/main.py:26-98 (`run_benchmark`), 101-117 (`synthesise`),
/repo/fossil/cegis.py:220-228 (the seed stored in the result), /repo/fossil/cegis_supervisor.py:16-21, 56 (worker seeds).

All random numbers of a synthesis run are drawn from torch's global generator (domains.py:81-274, translator.py:341-342,
verifier.py:247, torch.nn's weight initialisation), so a run is a program that draws from that generator. Everything else in it
(solver answers, floating point) is taken to be a function of the values drawn: solver timeouts that depend on the clock are not
modelled here (they are in `Assembly`, where the solver is arbitrary).
-/
import Verif.Supervisor

namespace Fossil

/-- torch's generator: the seed last given to `manual_seed` (or chosen at start-up), and how many values were drawn since. -/
structure Gen where
  seed : ℕ
  pos : ℕ
deriving DecidableEq, Repr

/-- `torch.manual_seed(s)` for `0 ≤ s` (main.py:73, 114; cegis_supervisor.py:19). -/
def manualSeed (s : ℕ) : Gen := ⟨s, 0⟩

/-- A program whose only effects are drawing values of type `V` from the generator and asking for `torch.initial_seed()`. -/
inductive RProg (V ρ : Type) where
  | ret (r : ρ)
  | draw (k : V → RProg V ρ)
  | initialSeed (k : ℕ → RProg V ρ)

/-- Running a program; `stream s i` is the `i`-th value of the generator seeded with `s`. -/
def RProg.run {V ρ : Type} (stream : ℕ → ℕ → V) : RProg V ρ → Gen → ρ × Gen
  | .ret r, g => (r, g)
  | .draw k, g => (k (stream g.seed g.pos)).run stream ⟨g.seed, g.pos + 1⟩
  | .initialSeed k, g => (k g.seed).run stream g

/-- Sequencing. -/
def RProg.bind {V ρ ρ' : Type} : RProg V ρ → (ρ → RProg V ρ') → RProg V ρ'
  | .ret r, f => f r
  | .draw k, f => .draw fun v => (k v).bind f
  | .initialSeed k, f => .initialSeed fun s => (k s).bind f

/-- `Cegis(opts).solve()`: some program `body` (construction, data generation, the loop), then the statistics with
`torch.initial_seed()` (cegis.py:220-228, 529-537). The result carries the recorded seed. -/
def cegisProgram {V ρ : Type} (body : RProg V ρ) : RProg V (ρ × ℕ) :=
  body.bind fun r => .initialSeed fun s => .ret (r, s)

/-- `synthesise` (main.py:101-117), in a process whose generator is `g`: reseeded only if SEED is given. -/
def synthesiseSeeded {V ρ : Type} (stream : ℕ → ℕ → V) (seed : Option ℕ) (body : RProg V ρ) (g : Gen) : (ρ × ℕ) × Gen :=
  match seed with
  | some s => (cegisProgram body).run stream (manualSeed s)
  | none => (cegisProgram body).run stream g

/-- `N_PROCS`, `BASE_SEED` (main.py:27-28). -/
def nProcs : ℕ := 4
@[inherit_doc nProcs] def baseSeed : ℕ := 167

/-- The seed of repetition `i` (main.py:73). -/
def repeatSeed (i : ℕ) : ℕ := baseSeed + i * nProcs

/-- The loop of `run_benchmark` without `concurrent` (main.py:72-98), over the given repetitions: the results in order. Plotting and
recording do not draw random numbers. -/
def benchmarkLoop {V ρ : Type} (stream : ℕ → ℕ → V) (body : RProg V ρ) : List ℕ → Gen → List (ρ × ℕ) × Gen
  | [], g => ([], g)
  | i :: is, _ =>
    let (r, g') := (cegisProgram body).run stream (manualSeed (repeatSeed i))
    let (rs, g'') := benchmarkLoop stream body is g'
    (r :: rs, g'')

/-- `run_benchmark(opts, repeat=n)` (main.py:51-98). -/
def runBenchmark {V ρ : Type} (stream : ℕ → ℕ → V) (body : RProg V ρ) (n : ℕ) (g : Gen) : List (ρ × ℕ) × Gen :=
  benchmarkLoop stream body (List.range n) g

/-- The seed of worker `id` in repetition `i` of `run_benchmark(..., concurrent=True)`: `torch.initial_seed()` in the parent is the seed of
the repetition, the worker adds its id (cegis_supervisor.py:18-19, 56, 62). -/
def workerSeed (i id : ℕ) : ℕ := repeatSeed i + id

/-- What worker processes can put on the queue: the result of the CEGIS run with their seed (cegis_supervisor.py:18-22). -/
def producesSeeded {V ρ : Type} (stream : ℕ → ℕ → V) (body : RProg V (Bool × ρ)) (s : ℕ) (r : WResult (ρ × ℕ)) : Prop :=
  ((cegisProgram body).run stream (manualSeed s)).1 = ((r.res, r.body.1), r.body.2)

end Fossil

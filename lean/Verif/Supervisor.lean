/-
Model of /repo/fossil/cegis_supervisor.py: `max_P` worker processes that each run CEGIS with their own seed and put their
result on a shared queue, and the supervisor polling that queue. Interleavings of workers and supervisor are the executions
of a labelled transition system.
-/
import Verif.Py
import Mathlib.Data.Nat.Notation

namespace Fossil

/-- What the supervisor sees of a `Result` (cegis.py:32-36): the success flag `res`, and the rest (certificate, dynamics,
statistics) as an opaque value. -/
structure WResult (α : Type) where
  res : Bool
  body : α

/-- `CertificateSolution` (certificate.py:1634-1649) defines no method `clean`: `hasattr(result.cert, "clean")`. -/
def certHasClean : Bool := false

/-- The part of `worker_Q` after `c.solve()` (cegis_supervisor.py:22-42): the certificate object is cleaned for pickling (an
AttributeError if it has no such method), then the result is put on the queue under the worker's id. `result.cert` is
never a tuple (cegis.py:224-227, 533-536), so lines 25-27 are dead. -/
def workerFinish {α : Type} (hasClean : Bool) (id : ℕ) (r : WResult α) : Except Err (ℕ × WResult α) :=
  if hasClean then .ok (id, r) else .error .attributeError

/-- State of a worker process. -/
inductive WStatus where
  | notStarted | running | finished | crashed
deriving DecidableEq

/-- State of the parallel run: number of started workers (`id`, `len(procs)`), worker states, queue (front first), `n_res`,
and the value returned by `solve`. -/
structure Sup (α : Type) where
  started : ℕ
  status : ℕ → WStatus
  queue : List (ℕ × WResult α)
  nRes : ℕ
  ret : Option (ℕ × WResult α)

/-- Observable events. -/
inductive SupEvent (α : Type) where
  | start (i : ℕ)
  | put (i : ℕ) (r : WResult α)
  | crash (i : ℕ)
  | poll

/-- One non-blocking `queue.get` and what follows it (cegis_supervisor.py:69-88): a success is returned at once; a failure is
counted and the last one returned when `max_P` failures have arrived; an empty queue is ignored. -/
def Sup.poll {α : Type} (maxP : ℕ) (s : Sup α) : Sup α :=
  match s.queue with
  | [] => s
  | m :: q =>
    if m.2.res then { s with queue := q, ret := some m }
    else if s.nRes + 1 = maxP then { s with queue := q, nRes := s.nRes + 1, ret := some m }
    else { s with queue := q, nRes := s.nRes + 1 }

/-- Overwrite the state of worker `i`. -/
def Sup.setStatus {α : Type} (s : Sup α) (i : ℕ) (w : WStatus) : Sup α :=
  { s with status := fun j => if j = i then w else s.status j }

/-- Initial state of `solve` (cegis_supervisor.py:53-58). -/
def Sup.init (α : Type) : Sup α := ⟨0, fun _ => .notStarted, [], 0, none⟩

/-- One step. `produces seed r`: a CEGIS run with that seed can return `r` (runs need not be deterministic: solver timeouts);
`hasClean` as above. A worker may also die for any other reason. Once `solve` returned nothing happens any more (the processes
are terminated or ignored). -/
inductive SupStep {α : Type} (maxP base : ℕ) (hasClean : Bool) (produces : ℕ → WResult α → Prop) :
    Sup α → SupEvent α → Sup α → Prop where
  /-- the inner `while len(procs) < max_P` (cegis_supervisor.py:60-66): worker `id` is started with seed `base + id` -/
  | start (s) (hr : s.ret = none) (h : s.started < maxP) :
      SupStep maxP base hasClean produces s (.start s.started)
        { s.setStatus s.started .running with started := s.started + 1 }
  /-- a worker finishes and puts its result -/
  | put (s i r m) (hr : s.ret = none) (h : s.status i = .running) (hp : produces (base + i) r)
      (hf : workerFinish hasClean i r = .ok m) :
      SupStep maxP base hasClean produces s (.put i r) { s.setStatus i .finished with queue := s.queue ++ [m] }
  /-- a worker raises: in `clean`, or anywhere else -/
  | crash (s i) (hr : s.ret = none) (h : s.status i = .running) :
      SupStep maxP base hasClean produces s (.crash i) (s.setStatus i .crashed)
  /-- the supervisor polls; by then all workers are started -/
  | poll (s) (hr : s.ret = none) (h : s.started = maxP) :
      SupStep maxP base hasClean produces s .poll (s.poll maxP)

/-- Executions from the initial state with their event history. -/
inductive SupExec {α : Type} (maxP base : ℕ) (hasClean : Bool) (produces : ℕ → WResult α → Prop) :
    List (SupEvent α) → Sup α → Prop where
  | init : SupExec maxP base hasClean produces [] (Sup.init α)
  | step {evs s ev s'} : SupExec maxP base hasClean produces evs s →
      SupStep maxP base hasClean produces s ev s' → SupExec maxP base hasClean produces (evs ++ [ev]) s'

end Fossil

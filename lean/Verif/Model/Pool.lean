import Verif.Py.Basic

/-!
# Model of `ParallelExecutor.run` (`src/pyftle/parallel.py`)

A transition system.  One step is one atomic action of the caller, of the manager thread of
`concurrent.futures.ProcessPoolExecutor`, or of a worker process; every interleaving of these
actions is an execution.  The library is modelled by its documented behaviour and the two
queues of its implementation (CPython 3.10–3.13): submitted work items wait in a FIFO; at most
`max_workers + 1` of them are moved to the call queue, where they can no longer be cancelled;
idle workers take them from there in order.  If a worker process dies, all unfinished futures
fail with `BrokenProcessPool` (a subclass of `RuntimeError`) and further submissions raise it.

A task runs in its own process on a pickled copy of its arguments, so what it returns or
raises does not depend on the other tasks: `outcome i`.  Errors in pickling count as outcomes.
The monitor process is modelled in `Model/Monitor.lean`; here only whether it has been told to
stop.  `KeyboardInterrupt` is added in `Model/Interrupt.lean`.
-/

namespace Verif

/-- A call of `run` (parallel.py:171): the number of tasks, `self.n_processes`, what each
worker call returns or raises, and what the property `task.id` gives. -/
structure Job (R : Type) where
  n : ℕ
  workers : ℤ
  outcome : ℕ → Py R
  taskId : ℕ → Py String

/-- Where the caller is. -/
inductive Phase (R : Type) where
  /-- in the dict comprehension, about to submit task `i` (parallel.py:224-227) -/
  | submitting (i : ℕ)
  /-- in the loop over `as_completed(futures)` (parallel.py:229-255) -/
  | collecting
  /-- `return results` (parallel.py:271) -/
  | returned (results : List (Option R))
  /-- an exception has been raised in the `with` block or at the end of the function.  On its
  way out of the `with` block `ProcessPoolExecutor.__exit__` waits for the tasks that have
  been submitted and not cancelled, so workers can still act in this phase. -/
  | raised (e : PyErr)

/-- State of the pool and the caller. -/
structure Pool (R : Type) where
  phase : Phase R
  /-- submitted work items not yet moved to the call queue -/
  pending : List ℕ
  /-- items in the call queue -/
  queued : List ℕ
  /-- tasks being executed by a worker -/
  running : List ℕ
  /-- futures that are done and have not been yielded by `as_completed` -/
  finished : List (ℕ × Py R)
  /-- futures yielded by `as_completed` -/
  observed : List ℕ
  cancelled : List ℕ
  /-- a worker process has died -/
  broken : Bool
  results : List (Option R)
  /-- the indices in the list `exceptions` -/
  exceptions : List ℕ
  /-- `self._stop_event` is set -/
  stopped : Bool
  /-- the monitor process has been terminated -/
  monitorKilled : Bool

/-- Atomic actions. -/
inductive Action (R : Type) where
  | submit (i : ℕ)
  | submitFails
  | enqueue (i : ℕ)
  | start (i : ℕ)
  | finish (i : ℕ)
  | crash
  | observe (i : ℕ) (r : Py R)
  | finalise

/-- State at the start of the `with` block (parallel.py:212-223).  `tasks[0]` raises
`IndexError` for an empty list; `ProcessPoolExecutor(max_workers=n)` raises `ValueError` for
`n ≤ 0`. -/
def Job.init {R : Type} (J : Job R) : Py (Pool R) :=
  if J.n = 0 then .error .indexError
  else if J.workers ≤ 0 then .error .valueError
  else .ok
    { phase := .submitting 0
      pending := []
      queued := []
      running := []
      finished := []
      observed := []
      cancelled := []
      broken := false
      results := List.replicate J.n none
      exceptions := []
      stopped := false
      monitorKilled := false }

/-- The caller handles a future it has been given (parallel.py:230-255). -/
def Pool.handle {R : Type} (J : Job R) (s : Pool R) (i : ℕ) (r : Py R) : Pool R :=
  match r with
  | .ok v =>
    { s with
      results := s.results.set i (some v)
      observed := i :: s.observed }
  | .error e =>
    match J.taskId i with
    | .error e' =>
      -- building the message raises: the handler is left before anything is stopped
      { s with
        observed := i :: s.observed
        phase := .raised e' }
    | .ok _ =>
      { s with
        observed := i :: s.observed
        exceptions := s.exceptions ++ [i]
        stopped := true
        pending := []
        cancelled := s.pending
        monitorKilled := true
        phase := .raised e }

/-- After the loop (parallel.py:257-271). -/
def Pool.finalise {R : Type} (s : Pool R) : Pool R :=
  if s.exceptions ≠ [] then
    { s with
      monitorKilled := true
      phase := .raised .runtimeError }
  else
    { s with
      monitorKilled := true
      phase := .returned s.results }

/-- One atomic action. -/
inductive Pool.Step {R : Type} (J : Job R) : Pool R → Action R → Pool R → Prop
  /-- `executor.submit(worker_fn, task, self.progress_queue)` -/
  | submit (s : Pool R) (i : ℕ) (hp : s.phase = .submitting i) (hi : i < J.n)
      (hb : s.broken = false) :
      Pool.Step J s (.submit i)
        { s with
          pending := s.pending ++ [i]
          phase := if i + 1 = J.n then .collecting else .submitting (i + 1) }
  /-- the same on a broken pool -/
  | submitFails (s : Pool R) (i : ℕ) (hp : s.phase = .submitting i) (hb : s.broken = true) :
      Pool.Step J s .submitFails { s with phase := .raised .runtimeError }
  /-- the manager thread fills the call queue -/
  | enqueue (s : Pool R) (i : ℕ) (rest : List ℕ) (hp : s.pending = i :: rest)
      (hq : (s.queued.length : ℤ) < J.workers + 1) :
      Pool.Step J s (.enqueue i)
        { s with
          pending := rest
          queued := s.queued ++ [i] }
  /-- an idle worker takes the next item -/
  | start (s : Pool R) (i : ℕ) (rest : List ℕ) (hq : s.queued = i :: rest)
      (hr : (s.running.length : ℤ) < J.workers) :
      Pool.Step J s (.start i)
        { s with
          queued := rest
          running := i :: s.running }
  /-- a worker has finished its task, normally or with an exception -/
  | finish (s : Pool R) (i : ℕ) (a b : List ℕ) (hr : s.running = a ++ i :: b) :
      Pool.Step J s (.finish i)
        { s with
          running := a ++ b
          finished := (i, J.outcome i) :: s.finished }
  /-- a worker process dies -/
  | crash (s : Pool R) (hb : s.broken = false) :
      Pool.Step J s .crash
        { s with
          pending := []
          queued := []
          running := []
          finished := (s.pending ++ s.queued ++ s.running).map (·, .error .runtimeError) ++
            s.finished
          broken := true }
  /-- `as_completed` yields a future that is done -/
  | observe (s : Pool R) (i : ℕ) (r : Py R) (a b : List (ℕ × Py R)) (hp : s.phase = .collecting)
      (hf : s.finished = a ++ (i, r) :: b) :
      Pool.Step J s (.observe i r) (Pool.handle J { s with finished := a ++ b } i r)
  /-- `as_completed` is exhausted -/
  | finalise (s : Pool R) (hp : s.phase = .collecting) (ho : s.observed.length = J.n) :
      Pool.Step J s .finalise s.finalise

/-- Executions, with their actions in order. -/
inductive Pool.Exec {R : Type} (J : Job R) (s₀ : Pool R) : List (Action R) → Pool R → Prop
  | nil : Pool.Exec J s₀ [] s₀
  | snoc {as : List (Action R)} {s s' : Pool R} {a : Action R} :
      Pool.Exec J s₀ as s → Pool.Step J s a s' → Pool.Exec J s₀ (as ++ [a]) s'

end Verif

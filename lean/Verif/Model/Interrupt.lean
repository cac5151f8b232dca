import Verif.Model.Pool

/-!
# Model of an interruption of `ParallelExecutor.run` (`src/pyftle/parallel.py`)

`Ctrl-C` in a terminal sends SIGINT to the calling process and to its workers; `kill -INT` sends it to
the calling process alone.  In the caller the loop of parallel.py:229 (or the comprehension of
parallel.py:224-227) raises `KeyboardInterrupt`.  This is not a subclass of `Exception`, so the handler
of parallel.py:234-255 is passed over, and the `with` statement of parallel.py:223 calls
`executor.__exit__`, which is `executor.shutdown(wait=True)`: nothing is cancelled, and the caller waits
until every task that has been submitted is done.  A worker that is executing a task catches the
`KeyboardInterrupt` (`_process_worker` in `concurrent/futures/process.py` of Python 3.10 to 3.13), hands
it back as the result of that task, and takes the next item.  A worker that waits for an item dies; this
is the action `crash` of `Model/Pool.lean`.

The behaviour of the library was compared with Python 3.11 (eight tasks on two workers, both kinds of
signal): the tasks in progress were aborted, or not, and all the others ran afterwards.

Simplifications: one interruption; it happens inside the `with` block while no exception is on its way;
a second one during the wait and a signal that reaches only a worker are not modelled.
-/

namespace Verif

/-- State of the pool with the interruption. -/
structure SigPool (R : Type) where
  pool : Pool R
  /-- `KeyboardInterrupt` has been raised in the caller, which waits in `executor.__exit__` -/
  interrupted : Bool
  /-- tasks that were in progress in a worker which received the signal -/
  aborted : List ℕ

/-- Atomic actions. -/
inductive SigAction (R : Type) where
  | act (a : Action R)
  | interrupt (hit : List ℕ)

/-- Actions of the library and its worker processes (parallel.py:223, the pool). -/
def Action.ofPool {R : Type} : Action R → Prop
  | .enqueue _ | .start _ | .finish _ | .crash => True
  | .submit _ | .submitFails | .observe _ _ | .finalise => False

/-- The caller is in the `with` block and no exception has been raised (parallel.py:223-255). -/
def Pool.InBlock {R : Type} (s : Pool R) : Prop :=
  (∃ i, s.phase = .submitting i) ∨ s.phase = .collecting

/-- One atomic action (parallel.py:223-255). -/
inductive SigPool.Step {R : Type} (J : Job R) : SigPool R → SigAction R → SigPool R → Prop
  /-- an action of `Model/Pool.lean`; after the interruption the caller only waits -/
  | act (s : SigPool R) (a : Action R) (p : Pool R) (h : Pool.Step J s.pool a p)
      (hi : s.interrupted = true → a.ofPool) :
      SigPool.Step J s (.act a) { s with pool := p }
  /-- the signal; it reaches the caller and the workers that execute the tasks `hit` -/
  | interrupt (s : SigPool R) (hit : List ℕ) (hi : s.interrupted = false) (hb : s.pool.InBlock)
      (hh : List.Sublist hit s.pool.running) :
      SigPool.Step J s (.interrupt hit)
        { pool := { s.pool with running := s.pool.running.filter fun i => i ∉ hit }
          interrupted := true
          aborted := hit }

/-- State at the start of the `with` block (parallel.py:212-223). -/
def Job.sigInit {R : Type} (J : Job R) : Py (SigPool R) :=
  match J.init with
  | .error e => .error e
  | .ok s => .ok ⟨s, false, []⟩

/-- Executions, with their actions in order. -/
inductive SigPool.Exec {R : Type} (J : Job R) (s₀ : SigPool R) : List (SigAction R) → SigPool R → Prop
  | nil : SigPool.Exec J s₀ [] s₀
  | snoc {as : List (SigAction R)} {s s' : SigPool R} {a : SigAction R} :
      SigPool.Exec J s₀ as s → SigPool.Step J s a s' → SigPool.Exec J s₀ (as ++ [a]) s'

end Verif

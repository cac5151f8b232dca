import Verif.Model.Pool
import Verif.Model.Monitor

/-!
# What a `ParallelExecutor` keeps between two calls of `run` (`src/pyftle/parallel.py`)

`__init__` creates the progress queue and the stop event; `run` creates everything else.  Nothing
empties the queue or clears the event.
-/

namespace Verif

variable {R : Type}

/-- Attributes of a `ParallelExecutor` that change (parallel.py:106-108): the stop event and the
messages in the queue, oldest first. -/
structure Executor where
  stopped : Bool
  queue : List ProgressMsg

/-- `ParallelExecutor(n)` (parallel.py:104-108). -/
def Executor.fresh : Executor := ⟨false, []⟩

/-- `run` up to the `with` block (parallel.py:212-223) on an executor that may have been used
before. -/
def Job.initOn (J : Job R) (E : Executor) : Py (Pool R) :=
  match J.init with
  | .error e => .error e
  | .ok s => .ok { s with stopped := E.stopped }

/-- The passes of the monitor loop (parallel.py:140-165) that are possible in a run in which the
tasks put `sent` on the queue, in this order: messages are read in the order of the queue, old
ones first, and the event, once set, stays set. -/
structure Executor.Watches (E : Executor) (sent : List ProgressMsg)
    (passes : List (Bool × List ProgressMsg)) : Prop where
  fifo : passes.flatMap Prod.snd <+: E.queue ++ sent
  stays : E.stopped = true → ∀ p ∈ passes, p.1 = true

/-- The executor after a run that left the pool in state `s`, with `read` messages read. -/
def Executor.after (E : Executor) (s : Pool R) (sent : List ProgressMsg) (read : ℕ) : Executor :=
  ⟨s.stopped, (E.queue ++ sent).drop read⟩

end Verif

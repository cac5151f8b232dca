import Verif.Model.Pool
import Verif.Model.Solver
import Verif.Model.Batches
import Mathlib.Logic.Function.Basic

/-!
# Model of worker calls with mutable state (`_worker` of `api.py` and `__main__.py`)

`Model/Pool.lean` takes what a worker call returns as given.  Here the calls are explicit: the
object whose bound method is submitted has mutable state, a call changes the state of the copy
it works on, and its result may depend on that state and on the contents of uninitialised
memory.  `ProcessPoolExecutor` pickles the bound method and the task for each work item, so a
call gets a copy of the state of the object in the calling process.  (The copy is made by the
feeder thread between the moves to the call queue and to a worker; no action changes the
object in the calling process, so the model makes it when the task starts.)
-/

namespace Verif

/-- A call of `ParallelExecutor.run` with the object whose method is the worker function:
`call i m s` is the state left behind and the result of the call for task `i` on a copy in
state `s`, where uninitialised memory contains `m`. -/
structure Host (σ M R : Type) where
  n : ℕ
  workers : ℤ
  taskId : ℕ → Py String
  object : σ
  call : ℕ → M → σ → σ × Py R

/-- State of the pool, of the object in the calling process and of the copies held by the
workers (by task). -/
structure HostState (σ R : Type) where
  pool : Pool R
  object : σ
  copies : ℕ → Option σ

variable {σ M R : Type}

/-- The pool of `Model/Pool.lean` in which task `i` returns what a call on the untouched object
returns. -/
def Host.job (H : Host σ M R) (mem : ℕ → M) : Job R where
  n := H.n
  workers := H.workers
  outcome := fun i => (H.call i (mem i) H.object).2
  taskId := H.taskId

/-- Start of the `with` block; `ParallelExecutor.run` (parallel.py:212-223). -/
def Host.init (H : Host σ M R) (mem : ℕ → M) : Py (HostState σ R) :=
  match (H.job mem).init with
  | .error e => .error e
  | .ok p => .ok ⟨p, H.object, fun _ => none⟩

/-- Atomic actions; `mem i` is what task `i` finds in uninitialised memory. -/
inductive HostState.Step (H : Host σ M R) (mem : ℕ → M) :
    HostState σ R → Action R → HostState σ R → Prop
  /-- a worker takes the next item and unpickles it -/
  | start (s : HostState σ R) (i : ℕ) (p : Pool R)
      (hp : Pool.Step (H.job mem) s.pool (.start i) p) :
      HostState.Step H mem s (.start i)
        { s with
          pool := p
          copies := Function.update s.copies i (some s.object) }
  /-- a worker has made the call on its copy -/
  | finish (s : HostState σ R) (i : ℕ) (a b : List ℕ) (c : σ)
      (hr : s.pool.running = a ++ i :: b) (hc : s.copies i = some c) :
      HostState.Step H mem s (.finish i)
        { s with
          pool := { s.pool with
            running := a ++ b
            finished := (i, (H.call i (mem i) c).2) :: s.pool.finished }
          copies := Function.update s.copies i none }
  /-- everything else does not involve the copies -/
  | other (s : HostState σ R) (a : Action R) (p : Pool R) (h1 : ∀ i, a ≠ .start i)
      (h2 : ∀ i, a ≠ .finish i) (hp : Pool.Step (H.job mem) s.pool a p) :
      HostState.Step H mem s a { s with pool := p }

/-- Executions. -/
inductive HostState.Exec (H : Host σ M R) (mem : ℕ → M) (s₀ : HostState σ R) :
    List (Action R) → HostState σ R → Prop
  | nil : HostState.Exec H mem s₀ [] s₀
  | snoc {as : List (Action R)} {s s' : HostState σ R} {a : Action R} :
      HostState.Exec H mem s₀ as s → HostState.Step H mem s a s' →
      HostState.Exec H mem s₀ (as ++ [a]) s'

section
variable {K F : Type} [Zero K] [One K] [Add K] [Sub K] [Mul K] [Div K] [NatCast K] [IntCast K]
  [Min K] [Max K] [NumLits K] [DecidableEq K]

/-- The mutable objects reached from the manager (`self.integrator`, `self.integrator.interpolator`)
and the task list: __main__.py:79-81 and `_create_batches`; api.py:110-112. -/
structure Shared (K : Type) where
  tasks : List (Source K)
  interp : AnyInterp K
  integ : Integ K

/-- `_worker(batch_source, progress_queue)` (__main__.py:181-187, api.py:177-183) for task `i`:
build a solver around the shared integrator and run it.  The value is paired with the effects
of the run; the result of `solver.run()` is returned by `api.py` and dropped by
`__main__.py`.  (`tasks[i]` is always defined in the executor.) -/
def Shared.worker (env : Env K F) (writer : Option (WriteFn K F)) (i : ℕ) (junk : List ℕ → K)
    (s : Shared K) : Shared K × Py (Option (List F) × List (Event K F)) :=
  match s.tasks[i]? with
  | none => (s, .error .indexError)
  | some src =>
    let out := (⟨src, s.interp, s.integ⟩ : Solver K).run { env with junk := junk } true writer
    (⟨s.tasks.set i out.solver.source, out.solver.interp, out.solver.integ⟩,
      match out.result with
      | .error e => .error e
      | .ok r => .ok (r, out.trace))

/-- The call `self.executor.run(batches, self._worker)` (__main__.py:205-206, api.py:206-207). -/
def Shared.host (env : Env K F) (writer : Option (WriteFn K F)) (workers : ℤ) (s : Shared K) :
    Host (Shared K) (List ℕ → K) (Option (List F) × List (Event K F)) where
  n := s.tasks.length
  workers := workers
  taskId := fun i =>
    match s.tasks[i]? with
    | none => .error .indexError
    | some src => src.id env
  object := s
  call := Shared.worker env writer

/-- `MultipleFTLEProcessManager.run` up to the start of the pool (__main__.py:205-206): build the
tasks, hand them to the executor. -/
def Manager.start (env : Env K F) (writer : Option (WriteFn K F)) (M : Manager K) (p : ℤ)
    (interp : AnyInterp K) (integ : Integ K) (workers : ℤ) (mem : ℕ → List ℕ → K) :
    Py (HostState (Shared K) (Option (List F) × List (Event K F))) :=
  match M.createBatches env.stem p with
  | .error e => .error e
  | .ok tasks => (Shared.host env writer workers ⟨tasks.map .file, interp, integ⟩).init mem

end

end Verif

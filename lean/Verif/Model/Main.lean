import Verif.Model.Decorators
import Verif.Model.Pool

/-!
# Model of `main` (`src/pyftle/__main__.py`)

The process exit status is 0 when `main` returns and 1 when an exception leaves it; the
console script of pyproject.toml:57 calls `sys.exit(main())` and `main` returns `None`.
-/

namespace Verif

variable {R : Type}

/-- The outcome of `ParallelExecutor.run` in a final phase. -/
def Phase.result : Phase R → Option (Py (List (Option R)))
  | .returned rs => some (.ok rs)
  | .raised e => some (.error e)
  | _ => none

/-- `main` without its decorator (__main__.py:230-234): what leaves the function when the
manager's `run` ends with `r`. -/
def mainCatches (r : Py Unit) : Py Unit :=
  match r with
  | .error .runtimeError => .ok ()
  | r => r

/-- The lines `main` prints itself (__main__.py:233-234), without the text of the exception. -/
def mainPrints (r : Py Unit) : List String :=
  match r with
  | .error .runtimeError => ["❌ Execution stopped: "]
  | _ => []

/-- `main` (__main__.py:215-234): the outcome and the lines printed by it and by the decorator
`time_it`.  `r` is how constructing the manager and running it ends; its value is dropped. -/
def mainProgram {α : Type} (start stop : ℤ) (r : Py α) : Py Unit × List String :=
  let r' : Py Unit := match r with
    | .error e => .error e
    | .ok _ => .ok ()
  let (out, lines) := timeIt start stop (mainCatches r')
  (out, mainPrints r' ++ lines)

/-- The exit status of the process. -/
def exitStatus (r : Py Unit) : ℕ :=
  match r with
  | .ok _ => 0
  | .error _ => 1

end Verif

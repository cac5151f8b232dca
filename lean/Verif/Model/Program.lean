import Verif.Model.Api
import Verif.Model.Cli
import Verif.Model.FileUtils

/-!
# Model of the command line program (`src/pyftle/__main__.py`)

From the values of the options to the process pool.  What `main` does with the outcome is in
`Model/Main.lean`, the executor in `Model/Workers.lean` and `Model/Pool.lean`.
-/

namespace Verif

/-- The options used by `MultipleFTLEProcessManager` (hyperparameters.py:74-90), the list files
represented by their contents (`none`: no such file) and the period by the outcome of
`int(flow_map_period / abs(snapshot_timestep)) + 1` (`snapshotsPerPeriod`).  The output
directory is in `Model/Disk.lean`. -/
structure ProgramArgs (K : Type) where
  velocityList : Option (List Char)
  coordinateList : Option (List Char)
  particleList : Option (List Char)
  timestep : K
  snapshots : Py ℤ
  options : CliOptions
  processes : ℤ
  flowGridShape : Option (List ℕ)
  particlesGridShape : Option (List ℕ)

/-- The strings of a list file.  Simplification: a missing value makes `get_files_list` hand out
the float `nan` in place of a path, and the `TypeError` of `Path(nan)` or of `loadmat(nan)` comes
later; the model raises it at once. -/
def pathStrings (cells : List (Option (List Char))) : Py (List String) :=
  pyMap (fun c => match c with
    | none => .error .typeError
    | some s => .ok (String.ofList s)) cells

/-- `get_files_list(path)` (__main__.py:71-73). -/
def readPaths (content : Option (List Char)) : Py (List String) :=
  match getFilesList content with
  | .error e => .error e
  | .ok cells => pathStrings cells

/-- A `MultipleFTLEProcessManager` (__main__.py:71-87). -/
structure Program (K F : Type) where
  manager : Manager K
  snapshots : Py ℤ
  interp : AnyInterp K
  integ : Integ K
  writer : WriteFn K F
  processes : ℤ

/-- `MultipleFTLEProcessManager()` (__main__.py:69-89).  `ParallelExecutor(...)` stores the number
of processes without looking at it. -/
def Program.create {K F : Type} [Zero K] [LT K] [DecidableLT K] [Inhabited F]
    (lower : String → String) (a : ProgramArgs K) : Py (Program K F) :=
  match readPaths a.velocityList with
  | .error e => .error e
  | .ok snapshots =>
    match readPaths a.coordinateList with
    | .error e => .error e
    | .ok coordinates =>
      match readPaths a.particleList with
      | .error e => .error e
      | .ok particles =>
        match setup lower a.options a.flowGridShape with
        | .error e => .error e
        | .ok (interp, kind, w) => .ok
          { manager := (⟨snapshots, coordinates, particles, a.timestep⟩ :
              Manager K).handleTimeDirection
            snapshots := a.snapshots
            interp := interp
            integ := Integ.fresh kind
            writer := (Writer.fresh w a.particlesGridShape).asWriteFn
            processes := a.processes }

/-- What a task has saved, by the events of its run. -/
def savedBy {K F : Type} :
    Option (Option (List F) × List (Event K F)) → List (String × (List F × NDArray K))
  | some (_, events) => events.filterMap fun e =>
      match e with
      | .written name field centroids => some (name, (field, centroids))
      | _ => none
  | none => []

section
variable {K F : Type} [Zero K] [One K] [Add K] [Sub K] [Mul K] [Div K] [NatCast K] [IntCast K]
  [Min K] [Max K] [NumLits K] [DecidableEq K]

/-- The call `self.executor.run(batches, self._worker)` with `batches = self._create_batches()`
(__main__.py:205-206); the period is computed in `_create_batches`. -/
def Program.host (env : Env K F) (P : Program K F) :
    Py (Host (Shared K) (List ℕ → K) (Option (List F) × List (Event K F))) :=
  match P.snapshots with
  | .error e => .error e
  | .ok p =>
    match P.manager.createBatches env.stem p with
    | .error e => .error e
    | .ok tasks => .ok
        (Shared.host env (some P.writer) P.processes ⟨tasks.map .file, P.interp, P.integ⟩)

end

end Verif

import Verif.Model.Interpolate
import Verif.Model.FileReaders
import Mathlib.Data.List.Dedup
import Mathlib.LinearAlgebra.Matrix.Notation

/-!
# Model of `src/pyftle/data_source.py`

Files do not change while a run is in progress: the file system is a fixed map.  The two
ways a source builds its identifier, `Path(p).stem` and `f"{t:06f}"`, are parameters here
(`Model/Names.lean` gives them).
-/

namespace Verif

/-- What a run uses of its surroundings: the files, SciPy, the C++ target, the contents of
uninitialised memory, the scalar functions, and the FTLE kernels of `ftle.py` (values in
`F`). -/
structure Env (K F : Type) where
  fs : MatFS K
  sp : SciPy K
  m : CMachine K
  junk : List ℕ → K
  stem : String → String
  timeName : K → String
  abs : K → K
  ftle2 : List (Matrix (Fin 2) (Fin 2) K) → K → Py (List F)
  ftle3 : List (Matrix (Fin 3) (Fin 3) K) → K → Py (List F)

variable {K F : Type}

/-- Attributes of a `FileBatchSource` (data_source.py:132-141); `flow_map_period` is stored
and never read. -/
structure FileSource (K : Type) where
  snapshotFiles : List String
  coordinateFiles : List String
  particleFile : String
  timestep : K
  id : String
  reuseCoordinates : Bool

/-- `FileBatchSource(...)` (data_source.py:124-141): `self.snapshot_files[0]` raises
`IndexError` for an empty list; `len(set(coordinate_files)) == 1`. -/
def FileSource.create (stem : String → String) (snapshots coordinates : List String)
    (particleFile : String) (timestep : K) : Py (FileSource K) :=
  match snapshots with
  | [] => .error .indexError
  | s :: _ => .ok
      { snapshotFiles := snapshots
        coordinateFiles := coordinates
        particleFile := particleFile
        timestep := timestep
        id := stem s
        reuseCoordinates := decide (coordinates.dedup.length = 1) }

/-- `FileBatchSource.get_data_for_step` (data_source.py:169-197) for `step_index ≥ 0`. -/
def FileSource.dataForStep (fs : MatFS K) (s : FileSource K) (i : ℕ) :
    Py (NDArray K × Option (NDArray K)) :=
  match s.snapshotFiles[i]? with
  | none => .error .indexError
  | some velFile =>
    match s.coordinateFiles[i]? with
    | none => .error .indexError
    | some coordFile =>
      match readVelocity fs velFile with
      | .error e => .error e
      | .ok v =>
        if i = 0 ∨ ¬ s.reuseCoordinates then
          match readCoordinate fs coordFile with
          | .error e => .error e
          | .ok c => .ok (v, some c)
        else .ok (v, none)

/-- Attributes of an `AnalyticalBatchSource` (data_source.py:236-246).  `particles` is a
reference to the object shared by all sources of a solver. -/
structure AnalyticalSource (K : Type) where
  particles : Particles K
  timestep : K
  times : List K

/-- Either kind of batch source. -/
inductive Source (K : Type) where
  | file (s : FileSource K)
  | analytical (s : AnalyticalSource K)

/-- Property `id` (data_source.py:143-146, 248-251): `self.times[0]` raises `IndexError` for
an empty sequence. -/
def Source.id (env : Env K F) : Source K → Py String
  | .file s => .ok s.id
  | .analytical s =>
    match s.times with
    | [] => .error .indexError
    | t :: _ => .ok (env.timeName t)

/-- Property `num_steps` (data_source.py:148-151, 253-256). -/
def Source.numSteps : Source K → ℕ
  | .file s => s.snapshotFiles.length
  | .analytical s => s.times.length

/-- Property `timestep` (data_source.py:153-156, 258-261). -/
def Source.timestep : Source K → K
  | .file s => s.timestep
  | .analytical s => s.timestep

/-- `get_particles` (data_source.py:158-167, 263-272): the file source reads the file every
time, the analytical source hands out its own object. -/
def Source.getParticles [Add K] [Sub K] [Div K] [NatCast K] (fs : MatFS K) :
    Source K → Py (Particles K)
  | .file s => readSeedParticles fs s.particleFile
  | .analytical s => .ok s.particles

section
variable [Zero K] [One K] [Add K] [Sub K] [Mul K] [Div K] [NatCast K] [Min K] [Max K]
  [DecidableEq K]

/-- `update_interpolator` (data_source.py:199-211, 274-285). -/
def Source.updateInterp (env : Env K F) (src : Source K) (I : AnyInterp K) (i : ℕ) :
    AnyInterp K × Option PyErr :=
  match src with
  | .file s =>
    match s.dataForStep env.fs i with
    | .error e => (I, some e)
    | .ok (v, c) => I.update env.sp v c
  | .analytical _ => (I, none)

end

/-- The object mutated by a run of an analytical source is the source's own. -/
def Source.withParticles (p : Particles K) : Source K → Source K
  | .file s => .file s
  | .analytical s => .analytical { s with particles := p }

end Verif

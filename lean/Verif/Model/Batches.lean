import Verif.Model.DataSource
import Verif.Spec.Binary64

/-!
# Model of the construction of tasks

`MultipleFTLEProcessManager` of `src/pyftle/__main__.py` and `AnalyticalSolver` of
`src/pyftle/api.py`, up to the point where the task list is handed to the executor.
-/

namespace Verif

/-- `int(q)` for a finite number: truncation towards zero. -/
def truncInt (q : ℚ) : ℤ := q.num.tdiv q.den

/-- `int(flow_map_period / abs(timestep)) + 1` (__main__.py:134-136, api.py:104) for Python
floats: division by zero raises `ZeroDivisionError`, an infinite quotient makes `int` raise
`OverflowError`. -/
def snapshotsPerPeriod (period timestep : ℚ) : Py ℤ :=
  if timestep = 0 then .error .zeroDivisionError
  else
    match b64 (period / |timestep|) with
    | none => .error .overflowError
    | some q => .ok (truncInt q + 1)

/-- The attributes of `MultipleFTLEProcessManager` used to build tasks (__main__.py:70-75). -/
structure Manager (K : Type) where
  snapshotFiles : List String
  coordinateFiles : List String
  particleFiles : List String
  timestep : K

/-- `_handle_time_direction` (__main__.py:103-109); the printed line is not modelled. -/
def Manager.handleTimeDirection {K : Type} [Zero K] [LT K] [DecidableLT K] (M : Manager K) :
    Manager K :=
  if M.timestep < 0 then
    { M with
      snapshotFiles := M.snapshotFiles.reverse
      coordinateFiles := M.coordinateFiles.reverse
      particleFiles := M.particleFiles.reverse }
  else M

/-- `_create_batches` (__main__.py:133-166) with `p` snapshots per period. -/
def Manager.createBatches {K : Type} (stem : String → String) (M : Manager K) (p : ℤ) :
    Py (List (FileSource K)) :=
  let n : ℤ := M.snapshotFiles.length
  let snapshotBatches := (pyRange (n - p + 1)).map fun i : ℕ => pySlice M.snapshotFiles i (i + p)
  match isliceCycle M.coordinateFiles (n + p - 1) with
  | .error e => .error e
  | .ok coordCycle =>
    let coordinateBatches := (pyRange (n - p + 1)).map fun i : ℕ => pySlice coordCycle i (i + p)
    match isliceCycle M.particleFiles n with
    | .error e => .error e
    | .ok particleCycle =>
      match pyMap (fun i : ℕ => pyIndex particleCycle i) (pyRange (n - p + 1)) with
      | .error e => .error e
      | .ok particleBatches =>
        pyMap (fun i : ℕ =>
          match snapshotBatches[i]?, coordinateBatches[i]?, particleBatches[i]? with
          | some s, some c, some f => FileSource.create stem s c f M.timestep
          | _, _, _ => .error .indexError) (pyRange (n - p + 1))

/-- `AnalyticalSolver._create_batches` (api.py:137-155): `start_times = arange(num_ftles) * dt`,
`offsets = arange(num_snapshots) * dt`, all sums.  A non-positive count gives an empty
`arange`. -/
def analyticalBatches {K : Type} [Add K] [Mul K] [NatCast K] (particles : Particles K)
    (timestep : K) (numFtles numSnapshots : ℤ) : List (AnalyticalSource K) :=
  (pyRange numFtles).map fun i : ℕ =>
    { particles := particles
      timestep := timestep
      times := (pyRange numSnapshots).map fun k : ℕ =>
        (i : K) * timestep + (k : K) * timestep }

end Verif

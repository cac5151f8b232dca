import Verif.Model.Workers
import Verif.Model.Writers

/-!
# Model of `src/pyftle/api.py`

The printed lines (api.py:114-117) are not modelled; the directory name built from the clock
(api.py:120-122) is in `Model/ApiDisk.lean`.
-/

namespace Verif

variable {K F : Type}

/-- Attributes of an `AnalyticalSolver` (api.py:99-123).  The velocity function is held by the
interpolator. -/
structure ApiSolver (K F : Type) where
  particles : Particles K
  timestep : K
  numFtles : ℤ
  numSnapshots : ℤ
  interp : AnyInterp K
  integ : Integ K
  writer : Option (WriteFn K F)
  processes : ℤ

/-- A 1-D array from the list of its entries (values outside the shape are never read). -/
def arrayOfList [Inhabited F] (l : List F) : NDArray F :=
  ⟨[l.length], fun idx => l.getD (idx.headD 0) default⟩

/-- `write` of a newly constructed writer as the solver sees it: the result is dropped, an
exception is not.  (A worker process gets its own copy of the writer for every task, so the
writer has always just been constructed.) -/
def Writer.asWriteFn [Zero K] [Inhabited F] (w : Writer) : WriteFn K F :=
  fun name field centroids =>
    match (w.write name (arrayOfList field) centroids).2 with
    | .error e => some e
    | .ok _ => none

/-- `AnalyticalSolver(...)` (api.py:87-123).  `snapshots` is the outcome of
`int(flow_map_period / abs(timestep)) + 1` (`snapshotsPerPeriod`); `ParallelExecutor(...)` only
stores its argument.  `create_writer(output_format, dir)` passes no grid shape. -/
def ApiSolver.create [Zero K] [Inhabited F] (lower : String → String) (fn : VelocityFn K)
    (particles : Particles K) (timestep : K) (snapshots : Py ℤ) (numFtles : ℤ)
    (integratorName : String) (processes : ℤ) (saveOutput : Bool) (outputFormat : String) :
    Py (ApiSolver K F) :=
  match snapshots with
  | .error e => .error e
  | .ok n =>
    match createInterpolator lower "analytical" none (some fn) with
    | .error e => .error e
    | .ok interp =>
      match createIntegrator lower integratorName with
      | .error e => .error e
      | .ok kind =>
        let S : ApiSolver K F :=
          { particles := particles
            timestep := timestep
            numFtles := numFtles
            numSnapshots := n
            interp := interp
            integ := Integ.fresh kind
            writer := none
            processes := processes }
        if saveOutput then
          match createWriter outputFormat with
          | .error e => .error e
          | .ok w => .ok { S with writer := some (Writer.fresh w none).asWriteFn }
        else .ok S

/-- The value of `AnalyticalSolver.run`. -/
inductive ApiResult (F : Type) where
  /-- `None` -/
  | none
  /-- a 1-D array -/
  | field (values : List F)
  /-- a 2-D array, by rows -/
  | stack (rows : List (List F))
  /-- a 1-D object array of `n` entries `None` -/
  | nones (n : ℕ)

/-- `np.stack(results, axis=0)` for a list of 1-D arrays and `None`s (which become 0-D object
arrays): the shapes must agree. -/
def npStack (rs : List (Option (List F))) : Py (ApiResult F) :=
  match rs with
  | [] => .error .valueError
  | Option.none :: _ =>
    if rs.all Option.isNone then .ok (.nones rs.length) else .error .valueError
  | some v :: _ =>
    if rs.all fun r => r.map List.length == some v.length then .ok (.stack (rs.filterMap id))
    else .error .valueError

/-- `run` after the executor has returned (api.py:210-224). -/
def ApiSolver.finish (S : ApiSolver K F) (results : List (Option (List F))) :
    Py (ApiResult F) :=
  match S.writer with
  | some _ => .ok .none
  | none =>
    match results with
    | [] => .error .runtimeError
    | [Option.none] => .ok .none
    | [some v] => .ok (.field v)
    | rs => npStack rs

section
variable [Zero K] [One K] [Add K] [Sub K] [Mul K] [Div K] [NatCast K] [IntCast K]
  [Min K] [Max K] [NumLits K] [DecidableEq K]

/-- What the workers share: `self.integrator` (with its interpolator) and the task list
(api.py:206). -/
def ApiSolver.shared (S : ApiSolver K F) : Shared K :=
  ⟨(analyticalBatches S.particles S.timestep S.numFtles S.numSnapshots).map .analytical,
    S.interp, S.integ⟩

/-- The call `self.executor.run(batches, self._worker)` (api.py:207). -/
def ApiSolver.host (env : Env K F) (S : ApiSolver K F) :
    Host (Shared K) (List ℕ → K) (Option (List F) × List (Event K F)) :=
  Shared.host env S.writer S.processes S.shared

/-- The end of `run`, given the state of the executor: its list of results (an entry is `None`
before it is assigned, then what the worker returned), or its exception.  `none` while the
executor is still at work. -/
def ApiSolver.outcome (S : ApiSolver K F)
    (s : HostState (Shared K) (Option (List F) × List (Event K F))) :
    Option (Py (ApiResult F)) :=
  match s.pool.phase with
  | .returned rs => some (S.finish (rs.map fun r => r.bind Prod.fst))
  | .raised e => some (.error e)
  | _ => Option.none

end

end Verif

import Verif.Model.DataSource
import Verif.Model.CauchyGreen

/-!
# Model of `src/pyftle/ftle_solver.py`

The effects of a run that other parts of the program can observe are collected in a trace,
in program order: messages put on the progress queue, the moment the field exists, and the
file written.

During one call of `integrator.integrate` the interpolator is queried several times; the
only thing a query changes are the work buffers of `HighPerfInterpolator`.  The model uses
the interpolator as it is at the start of the call for all its queries and updates the
buffers once at the end; `interpolate_again` (`Lemmas/Solver.lean`) proves that queries of
one shape do not influence each other.
-/

namespace Verif

variable {K F : Type}

/-- Observable effects of a run. -/
inductive Event (K F : Type) where
  /-- `progress_queue.put((id, i))` -/
  | progress (id : String) (step : ℕ)
  /-- `progress_queue.put((id, "done"))` -/
  | done (id : String)
  /-- `_compute_ftle` has returned this field -/
  | computed (values : List F)
  /-- `output_writer.write(filename, ftle_field, initial_centroid)` has returned -/
  | written (name : String) (values : List F) (centroids : NDArray K)

/-- `output_writer.write`, as far as the solver is concerned: it may raise. -/
abbrev WriteFn (K F : Type) := String → List F → NDArray K → Option PyErr

/-- An `FTLESolver` together with the objects it refers to (ftle_solver.py:56-66). -/
structure Solver (K : Type) where
  source : Source K
  interp : AnyInterp K
  integ : Integ K

/-- State of the loop in `run`. -/
structure Loop (K F : Type) where
  interp : AnyInterp K
  integ : Integ K
  particles : Particles K
  trace : List (Event K F)

/-- What a run leaves behind. -/
structure RunOut (K F : Type) where
  solver : Solver K
  trace : List (Event K F)
  result : Py (Option (List F))

section
variable [Zero K] [One K] [Add K] [Sub K] [Mul K] [Div K] [NatCast K] [IntCast K] [Min K] [Max K]
  [NumLits K] [DecidableEq K]

/-- The velocity source seen by an integrator. -/
def AnyInterp.velocity (env : Env K F) (I : AnyInterp K) : Velocity K := fun q =>
  (I.interpolate env.sp env.m env.junk q).2

/-- Body of the loop (ftle_solver.py:95-102). -/
def Loop.step (env : Env K F) (src : Source K) (id : String) (queue : Bool) (i : ℕ)
    (st : Loop K F) : Loop K F × Option PyErr :=
  match src.updateInterp env st.interp i with
  | (I, some e) => ({ st with interp := I }, some e)
  | (I, none) =>
    match st.integ.integrate env.junk (I.velocity env) src.timestep st.particles with
    | (G, p, some e) =>
      ({ st with
          interp := (I.interpolate env.sp env.m env.junk st.particles.positions).1
          integ := G
          particles := p }, some e)
    | (G, p, none) =>
      ({ interp := (I.interpolate env.sp env.m env.junk st.particles.positions).1
         integ := G
         particles := p
         trace := st.trace ++ (if queue then [.progress id i] else []) }, none)

/-- The loop over the given step indices; stops at the first exception. -/
def Loop.steps (env : Env K F) (src : Source K) (id : String) (queue : Bool) :
    List ℕ → Loop K F → Loop K F × Option PyErr
  | [], st => (st, none)
  | i :: is, st =>
    match st.step env src id queue i with
    | (st', some e) => (st', some e)
    | (st', none) => Loop.steps env src id queue is st'

/-- `_compute_ftle` (ftle_solver.py:150-161): `map_period = (num_steps - 1) * abs(timestep)`. -/
def computeFtle (env : Env K F) (p : Particles K) (numSteps : ℕ) (dt : K) : Py (List F) :=
  if p.numNeighbors = 4 then
    match jacobian2 p with
    | .error e => .error e
    | .ok js => env.ftle2 js ((((numSteps : ℤ) - 1 : ℤ) : K) * env.abs dt)
  else
    match jacobian3 p with
    | .error e => .error e
    | .ok js => env.ftle3 js ((((numSteps : ℤ) - 1 : ℤ) : K) * env.abs dt)

/-- `FTLESolver.run` (ftle_solver.py:89-120); `queue`: a progress queue is present. -/
def Solver.run (env : Env K F) (queue : Bool) (writer : Option (WriteFn K F)) (S : Solver K) :
    RunOut K F :=
  match S.source.getParticles env.fs with
  | .error e => ⟨S, [], .error e⟩
  | .ok p =>
    match S.source.id env with
    | .error e => ⟨S, [], .error e⟩
    | .ok id =>
      match Loop.steps env S.source id queue (List.range S.source.numSteps)
          ⟨S.interp, S.integ, p, []⟩ with
      | (st, some e) =>
        ⟨⟨S.source.withParticles st.particles, st.interp, st.integ⟩, st.trace, .error e⟩
      | (st, none) =>
        let S' : Solver K := ⟨S.source.withParticles st.particles, st.interp, st.integ⟩
        let tr := st.trace ++ (if queue then [.done id] else [])
        match computeFtle env st.particles S.source.numSteps S.source.timestep with
        | .error e => ⟨S', tr, .error e⟩
        | .ok field =>
          let tr := tr ++ [.computed field]
          match writer with
          | none => ⟨S', tr, .ok (some field)⟩
          | some write =>
            match write ("ftle_" ++ id) field st.particles.initialCentroid with
            | some e => ⟨S', tr, .error e⟩
            | none =>
              ⟨S', tr ++ [.written ("ftle_" ++ id) field st.particles.initialCentroid], .ok none⟩

end

end Verif

import Verif.Model.Solver
import Mathlib.Algebra.Order.Floor.Ring

/-!
# Model of runs whose particles are stored as integers

`loadmat(path)` (file_readers.py:60, 103, 154) gives every variable the type in which the file
stores it: MATLAB writes an array of whole numbers in the shortest integer type that holds it, and
`savemat` keeps the type of the NumPy array.  No line of the program converts the particles to
`float64`, and all work arrays are made by `np.empty_like(positions)`, so that integer particles
make the whole run an integer computation wherever a number is *assigned*.  What an assignment does
with a `float64` number depends on who performs it:

* `out[:, c] = values` (NumPy) and `positions += ...` inside numba kernels convert without a
  check (`casting="unsafe"`): the fraction is cut off;
* `np.copyto(dst, src)` and `tmp += ...` in NumPy refuse to convert `float64` to integers
  (`casting="same_kind"`) and raise `TypeError` (`UFuncTypeError` is a `TypeError`).

The definitions below are those of `Model/Integrate.lean`, `Model/Interpolate.lean` and
`Model/Solver.lean` with the type of the particles as an additional argument.  Not modelled:
`float32`, booleans, and arrays of numbers larger than `2^53`, where the integers themselves are
not exact in `float64`.
-/

namespace Verif

/-- Sizes of integers. -/
inductive Width where
  | w8 | w16 | w32 | w64
  deriving DecidableEq, Repr

/-- Number of bits. -/
def Width.bits : Width → ℕ
  | .w8 => 8
  | .w16 => 16
  | .w32 => 32
  | .w64 => 64

/-- Element types of arrays. -/
inductive DType where
  | float64
  | unsigned (w : Width)
  | signed (w : Width)
  deriving DecidableEq, Repr

namespace DType

/-- Least number of an integer type. -/
def lo : DType → ℤ
  | .float64 => 0
  | .unsigned _ => 0
  | .signed w => -2 ^ (w.bits - 1)

/-- Greatest number of an integer type. -/
def hi : DType → ℤ
  | .float64 => 0
  | .unsigned w => 2 ^ w.bits - 1
  | .signed w => 2 ^ (w.bits - 1) - 1

/-- The longer of two sizes. -/
def longer (a b : Width) : Width := if a.bits ≤ b.bits then b else a

/-- `np.promote_types` of an unsigned and a signed type. -/
def mixed (a b : Width) : DType :=
  if a.bits < b.bits then .signed b
  else match a with
    | .w8 => .signed .w16
    | .w16 => .signed .w32
    | .w32 => .signed .w64
    | .w64 => .float64

/-- `np.promote_types`. -/
def promote : DType → DType → DType
  | .float64, _ => .float64
  | _, .float64 => .float64
  | .unsigned a, .unsigned b => .unsigned (longer a b)
  | .signed a, .signed b => .signed (longer a b)
  | .unsigned a, .signed b => mixed a b
  | .signed a, .unsigned b => mixed b a

end DType

/-- Conversion of `float64` numbers to integers: the integer part (towards zero), and what the
machine gives for numbers that do not fit, which C leaves undefined. -/
structure CastRules (K : Type) where
  trunc : K → ℤ
  unfit : DType → K → ℤ
  nonFinite : DType → ℤ

/-- What the particles of a run and the user's velocity function are stored in. -/
structure Storage (K : Type) where
  rules : CastRules K
  /-- type of a variable of a seed file: path and name -/
  inFile : String → String → DType
  /-- type of the particles given to `AnalyticalSolver` -/
  given : DType
  /-- does `velocity_fn` return a `float64` array of its own?  Otherwise it fills
  `np.empty_like(coordinates)` as in the example notebooks. -/
  own : Bool

variable {K F : Type}

section
variable [IntCast K]

/-- Unchecked assignment of a finite `float64` number. -/
def DType.store (R : CastRules K) (d : DType) (x : K) : K :=
  if d = .float64 then x
  else if d.lo ≤ R.trunc x ∧ R.trunc x ≤ d.hi then (R.trunc x : K)
  else (R.unfit d x : K)

/-- The same for a number that may be `inf` or `nan` (`none`). -/
def DType.storeIndex (R : CastRules K) (d : DType) (x : Option K) : Option K :=
  if d = .float64 then x
  else match x with
    | none => some (R.nonFinite d : K)
    | some x => some (d.store R x)

/-- Difference of two numbers of a type, given their exact difference: integers wrap around. -/
def DType.wrap (R : CastRules K) (d : DType) (x : K) : K :=
  if d = .float64 then x
  else (((R.trunc x - d.lo) % (d.hi - d.lo + 1) + d.lo : ℤ) : K)

/-- `NeighboringParticles(positions)` for positions of type `d`: the differences of
`__post_init__` are differences of that type; `np.mean` computes in `float64`. -/
def Particles.ofType (R : CastRules K) (d : DType) (p : Particles K) : Particles K :=
  { p with
    initialDeltaTB := p.initialDeltaTB.map (d.wrap R)
    initialDeltaRL := p.initialDeltaRL.map (d.wrap R)
    initialDeltaFB := p.initialDeltaFB.map (d.wrap R) }

end

/-- Type of `np.concatenate` of the blocks of a seed file (file_readers.py:167-180). -/
def Storage.seedType (st : Storage K) (fs : MatFS K) (path : String) : DType :=
  let t := st.inFile path
  let plane := ((t "left").promote (t "right")).promote ((t "top").promote (t "bottom"))
  match fs path with
  | none => .float64
  | some data =>
    match data "front", data "back" with
    | some _, some _ => plane.promote ((t "front").promote (t "back"))
    | _, _ => plane

/-- Type of the particles of a source. -/
def Source.seedType (st : Storage K) (fs : MatFS K) : Source K → DType
  | .file s => st.seedType fs s.particleFile
  | .analytical _ => st.given

section
variable [Zero K] [One K] [Add K] [Sub K] [Mul K] [Div K] [IntCast K] [DecidableEq K]

/-- `interp(t, out)` (grid_interp.py:69-85, 155-172): the buffer of the index coordinates is
`np.empty_like(arr)`. -/
def Interp.callOf (R : CastRules K) (d : DType) (m : CMachine K) (it : Interp K) (n cols : ℕ)
    (t : ℕ → ℕ → K) (outLen : Option ℕ) : Py (List K) :=
  if cols < it.axes.length then .error .indexError
  else
    let pts := (List.range n).map fun r => it.axes.zipIdx.map fun (a, c) =>
      d.storeIndex R (a.index (t r c))
    match it.axes.length with
    | 2 => interp2dVec m it.v cols pts outLen
    | _ => interp3dVec m it.v cols pts outLen

/-- `HighPerfInterpolator.interpolate` (interpolate.py:475-543): the velocities before they are
assigned to `out`; the buffers `_u_buffer` etc. are `float64` (interpolate.py:439-443). -/
def HighPerf.interpolateOf (R : CastRules K) (d : DType) (m : CMachine K) (junk : List ℕ → K)
    (s : HighPerf K) (q : NDArray K) : Py (NDArray K) :=
  match q.shape with
  | [n, dim] =>
    let s1 := s.ensureBuffers n dim
    let t : ℕ → ℕ → K := fun r c => q.get [r, c]
    let out := emptyLike junk q
    if dim = 2 then
      match s1.ix, s1.iy with
      | some x, some y =>
        match x.callOf R d m n dim t s1.uLen with
        | .error e => .error e
        | .ok u =>
          match y.callOf R d m n dim t s1.uLen with
          | .error e => .error e
          | .ok v => .ok (setCol (setCol out 0 (listCol u (junk []))) 1 (listCol v (junk [])))
      | _, _ => .error .assertionError
    else if dim = 3 then
      match s1.ix, s1.iy, s1.iz with
      | some x, some y, some z =>
        match x.callOf R d m n dim t s1.uLen with
        | .error e => .error e
        | .ok u =>
          match y.callOf R d m n dim t s1.uLen with
          | .error e => .error e
          | .ok v =>
            match z.callOf R d m n dim t s1.wLen with
            | .error e => .error e
            | .ok w =>
              .ok (setCol (setCol (setCol out 0 (listCol u (junk []))) 1 (listCol v (junk []))) 2
                (listCol w (junk [])))
      | _, _, _ => .error .assertionError
    else .error .valueError
  | _ => .error .indexError

variable [NatCast K] [Min K] [Max K] [NumLits K]

/-- The velocities that `interpolator.interpolate(new_points)` computes for points of type `d`, as
`float64` numbers: SciPy converts the points itself. -/
def AnyInterp.rawVelocity (st : Storage K) (d : DType) (env : Env K F) (I : AnyInterp K) :
    Velocity K := fun q =>
  match I with
  | .highPerf s => s.interpolateOf st.rules d env.m env.junk q
  | I => (I.interpolate env.sp env.m env.junk q).2

/-- What `np.copyto(buffer, interpolator.interpolate(points))` copies (integrate.py:193, 243, 324,
329, 334, 339): the interpolators for data in files return `np.empty_like(new_points)` filled
by column assignments (interpolate.py:177-183, 236-244, 284-292, 513-538, 713-719); the
result of an analytical function is refused if it is `float64` and the buffer is not. -/
def AnyInterp.velocityOf (st : Storage K) (d : DType) (env : Env K F) (I : AnyInterp K) :
    Velocity K := fun q =>
  match I.rawVelocity st d env q with
  | .error e => .error e
  | .ok v =>
    match I with
    | .analytical _ =>
      if st.own then (if d = .float64 then .ok v else .error .typeError)
      else .ok (v.map (d.store st.rules))
    | _ => .ok (v.map (d.store st.rules))

/-- Unchecked conversion of the positions at the end of a numba kernel. -/
def storeMoved (R : CastRules K) (d : DType) : Py (NDArray K) → Py (NDArray K)
  | .error e => .error e
  | .ok a => .ok (a.map (d.store R))

/-- `RungeKutta4Integrator.integrate` (integrate.py:291-342) for integer particles: the
statement `tmp += 0.5 * h * k1` of line 328 raises. -/
def rk4StepInt (junk : List ℕ → K) (vel : Velocity K) (bufs : Option (Rk4Bufs K))
    (pos : NDArray K) : Integ K × Py (NDArray K) :=
  let b := rk4Bufs junk bufs pos
  match fillFrom b.k1 vel pos with
  | .error e => (.rk4 (some b), .error e)
  | .ok k1 =>
    match copyto b.tmp pos with
    | .error e => (.rk4 (some { b with k1 := k1 }), .error e)
    | .ok t => (.rk4 (some { b with k1 := k1, tmp := t }), .error .typeError)

/-- `integrator.integrate(h, particles)` (integrate.py:177-196, 223-257, 291-342) as a function
of positions of type `d`; work arrays left from earlier calls have the same type. -/
def Integ.stepOf (R : CastRules K) (d : DType) (junk : List ℕ → K) (vel : Velocity K) (h : K) :
    Integ K → NDArray K → Integ K × Py (NDArray K)
  | .euler buf, pos =>
    let r := eulerStep junk vel h buf pos
    (r.1, storeMoved R d r.2)
  | .ab2 prev buf, pos =>
    let r := ab2Step junk vel h prev buf pos
    (r.1, storeMoved R d r.2)
  | .rk4 bufs, pos =>
    if d = .float64 then rk4Step junk vel h bufs pos else rk4StepInt junk vel bufs pos

/-- `Integ.integrate` for positions of type `d`. -/
def Integ.integrateOf (R : CastRules K) (d : DType) (junk : List ℕ → K) (vel : Velocity K) (h : K)
    (I : Integ K) (p : Particles K) : Integ K × Particles K × Option PyErr :=
  match I.stepOf R d junk vel h p.positions with
  | (I', .ok pos) => (I', { p with positions := pos }, none)
  | (I', .error e) => (I', p, some e)

/-- Body of the loop (ftle_solver.py:95-102). -/
def Loop.stepOf (st : Storage K) (d : DType) (env : Env K F) (src : Source K) (id : String)
    (queue : Bool) (i : ℕ) (l : Loop K F) : Loop K F × Option PyErr :=
  match src.updateInterp env l.interp i with
  | (I, some e) => ({ l with interp := I }, some e)
  | (I, none) =>
    match l.integ.integrateOf st.rules d env.junk (I.velocityOf st d env) src.timestep
        l.particles with
    | (G, p, some e) =>
      ({ l with
          interp := (I.interpolate env.sp env.m env.junk l.particles.positions).1
          integ := G
          particles := p }, some e)
    | (G, p, none) =>
      ({ interp := (I.interpolate env.sp env.m env.junk l.particles.positions).1
         integ := G
         particles := p
         trace := l.trace ++ (if queue then [.progress id i] else []) }, none)

/-- The loop; stops at the first exception. -/
def Loop.stepsOf (st : Storage K) (d : DType) (env : Env K F) (src : Source K) (id : String)
    (queue : Bool) : List ℕ → Loop K F → Loop K F × Option PyErr
  | [], l => (l, none)
  | i :: is, l =>
    match l.stepOf st d env src id queue i with
    | (l', some e) => (l', some e)
    | (l', none) => Loop.stepsOf st d env src id queue is l'

end

section
variable [Sub K] [Div K] [Zero K] [BEq K] [IntCast K]

/-- `compute_flow_map_jacobian_2x2` (cauchy_green.py:157-181): differences of type `d`, quotients
in `float64`. -/
def jacobian2Of (R : CastRules K) (d : DType) (p : Particles K) :
    Py (List (Matrix (Fin 2) (Fin 2) K)) :=
  match p.deltaRL with
  | .error e => .error e
  | .ok drl =>
    match p.deltaTB with
    | .error e => .error e
    | .ok dtb =>
      pyMap (jac2Body (drl.map (d.wrap R)) p.initialDeltaRL (dtb.map (d.wrap R)) p.initialDeltaTB)
        (List.range (p.positions.shape.headD 0 / 4))

/-- `compute_flow_map_jacobian_3x3` (cauchy_green.py:184-210). -/
def jacobian3Of (R : CastRules K) (d : DType) (p : Particles K) :
    Py (List (Matrix (Fin 3) (Fin 3) K)) :=
  match p.deltaRL with
  | .error e => .error e
  | .ok drl =>
    match p.deltaTB with
    | .error e => .error e
    | .ok dtb =>
      match p.deltaFB with
      | .error e => .error e
      | .ok dfb =>
        pyMap (jac3Body (drl.map (d.wrap R)) p.initialDeltaRL (dtb.map (d.wrap R)) p.initialDeltaTB
          (dfb.map (d.wrap R)) p.initialDeltaFB) (List.range (p.positions.shape.headD 0 / 6))

end

section
variable [Zero K] [One K] [Add K] [Sub K] [Mul K] [Div K] [NatCast K] [IntCast K] [Min K] [Max K]
  [NumLits K] [DecidableEq K]

/-- `_compute_ftle` (ftle_solver.py:150-161). -/
def computeFtleOf (R : CastRules K) (d : DType) (env : Env K F) (p : Particles K) (numSteps : ℕ)
    (dt : K) : Py (List F) :=
  if p.numNeighbors = 4 then
    match jacobian2Of R d p with
    | .error e => .error e
    | .ok js => env.ftle2 js ((((numSteps : ℤ) - 1 : ℤ) : K) * env.abs dt)
  else
    match jacobian3Of R d p with
    | .error e => .error e
    | .ok js => env.ftle3 js ((((numSteps : ℤ) - 1 : ℤ) : K) * env.abs dt)

/-- `FTLESolver.run` (ftle_solver.py:89-120) for particles stored as `st` says. -/
def Solver.runOf (st : Storage K) (env : Env K F) (queue : Bool) (writer : Option (WriteFn K F))
    (S : Solver K) : RunOut K F :=
  let d := S.source.seedType st env.fs
  match S.source.getParticles env.fs with
  | .error e => ⟨S, [], .error e⟩
  | .ok p =>
    match S.source.id env with
    | .error e => ⟨S, [], .error e⟩
    | .ok id =>
      match Loop.stepsOf st d env S.source id queue (List.range S.source.numSteps)
          ⟨S.interp, S.integ, p.ofType st.rules d, []⟩ with
      | (l, some e) =>
        ⟨⟨S.source.withParticles l.particles, l.interp, l.integ⟩, l.trace, .error e⟩
      | (l, none) =>
        let S' : Solver K := ⟨S.source.withParticles l.particles, l.interp, l.integ⟩
        let tr := l.trace ++ (if queue then [.done id] else [])
        match computeFtleOf st.rules d env l.particles S.source.numSteps S.source.timestep with
        | .error e => ⟨S', tr, .error e⟩
        | .ok field =>
          let tr := tr ++ [.computed field]
          match writer with
          | none => ⟨S', tr, .ok (some field)⟩
          | some write =>
            match write ("ftle_" ++ id) field l.particles.initialCentroid with
            | some e => ⟨S', tr, .error e⟩
            | none =>
              ⟨S', tr ++ [.written ("ftle_" ++ id) field l.particles.initialCentroid], .ok none⟩

end

end Verif

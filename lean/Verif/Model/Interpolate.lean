import Verif.Model.GridInterp
import Verif.Model.Integrate

/-!
# Model of `src/pyftle/interpolate.py`

Every interpolator class is a record of attributes; `update` returns the new record and
the exception raised, if any (attributes assigned before an exception keep their new
values), `interpolate` returns the new record and the result.

SciPy is a parameter (`SciPy K`): constructing an interpolator object may raise, calling
it on query points may raise and otherwise gives one number per query point.  Complex data
`v[0] + 1j * v[1]` are interpolated componentwise.

Queries are 2-D arrays `(n, d)`.  The optional argument `out` is not modelled: nothing in
`/repo/src` passes it.  All arrays are `float64`.
-/

namespace Verif

variable {K : Type}

/-- The three scattered-data interpolators. -/
inductive Scatter where
  | cubic | linear | nearest
  deriving DecidableEq, Repr

/-- The methods accepted by `GridInterpolator` (interpolate.py:582). -/
inductive GridMethod where
  | linear | nearest | slinear | cubic | quintic
  deriving DecidableEq, Repr

/-- What the code uses of SciPy. -/
structure SciPy (K : Type) where
  /-- Exception raised by `LinearNDInterpolator(points.T, values)` and the like. -/
  scatterBuild : Scatter → NDArray K → NDArray K → Option PyErr
  /-- Calling the object built from `points` and `values` on query points: the value for
  each query row. -/
  scatterCall : Scatter → NDArray K → NDArray K → NDArray K → Py (ℕ → K)
  /-- Exception raised by `RegularGridInterpolator(axes, values, method)`; an axis is
  `linspace(lo, hi, n)`. -/
  gridBuild : GridMethod → List (K × K × ℕ) → NDArray K → Option PyErr
  /-- Calling the grid interpolator. -/
  gridCall : GridMethod → List (K × K × ℕ) → NDArray K → NDArray K → Py (ℕ → K)

/-- `out[:, c] = values` for a 2-D array. -/
def setCol (out : NDArray K) (c : ℕ) (f : ℕ → K) : NDArray K :=
  ⟨out.shape, fun idx =>
    match idx with
    | [r, c'] => if c' = c then f r else out.get idx
    | _ => out.get idx⟩

/-- `out[:, c] = values`, raising `IndexError` when there is no column `c`. -/
def assignCol (out : NDArray K) (c : ℕ) (f : ℕ → K) : Py (NDArray K) :=
  match out.shape with
  | [_, d] => if c < d then .ok (setCol out c f) else .error .indexError
  | _ => .error .indexError

/-! ## Scattered data: `CubicInterpolator`, `LinearInterpolator`, `NearestNeighborInterpolator` -/

/-- Attributes of a scattered-data interpolator.  `interp = some (points, v0, v1)` is
`self.interpolator` built from `points` and `v0 + 1j * v1`; `interpZ = some (points, v2)`
is `self.interpolator_z`, an attribute that does not exist before it is first assigned
(and never in `CubicInterpolator`).  `self.tri` is not needed: the condition
`self.tri is None or self.points is not None` (interpolate.py:149, 220) is always true. -/
structure ScatterState (K : Type) where
  method : Scatter
  velocities : Option (NDArray K)
  points : Option (NDArray K)
  interp : Option (NDArray K × NDArray K × NDArray K)
  interpZ : Option (NDArray K × NDArray K)

/-- A new object (interpolate.py:30-43, 132-134, 206-208). -/
def ScatterState.fresh (method : Scatter) : ScatterState K := ⟨method, none, none, none, none⟩

/-- `velocities[c]` on the first axis. -/
def rowAt (v : NDArray K) (c : ℕ) : Py (NDArray K) :=
  match v.shape with
  | [] => .error .indexError
  | r :: _ => if c < r then .ok (v.row c) else .error .indexError

/-- `_initialize_interpolator` of the three classes (interpolate.py:136-155, 210-229,
266-277). -/
def ScatterState.initialize (sp : SciPy K) (s : ScatterState K) :
    ScatterState K × Option PyErr :=
  match s.velocities, s.points with
  | some v, some p =>
    if s.method = .cubic ∧ p.shape.headD 0 = 3 then (s, some .valueError)
    else
      match rowAt v 0 with
      | .error e => (s, some e)
      | .ok v0 =>
        match rowAt v 1 with
        | .error e => (s, some e)
        | .ok v1 =>
          match sp.scatterBuild s.method p v0 with
          | some e => (s, some e)
          | none =>
            let s1 := { s with interp := some (p, v0, v1) }
            if s.method ≠ .cubic ∧ p.shape.headD 0 = 3 then
              match rowAt v 2 with
              | .error e => (s1, some e)
              | .ok v2 =>
                match sp.scatterBuild s.method p v2 with
                | some e => (s1, some e)
                | none => ({ s1 with interpZ := some (p, v2) }, none)
            else (s1, none)
  | _, _ => (s, some .valueError)

/-- `Interpolator.update` (interpolate.py:70-91), inherited. -/
def ScatterState.update (sp : SciPy K) (s : ScatterState K) (v : NDArray K)
    (p : Option (NDArray K)) : ScatterState K × Option PyErr :=
  ScatterState.initialize sp
    { s with velocities := some v, points := match p with | none => s.points | some p => some p }

/-- `interpolate` of the three classes (interpolate.py:157-185, 231-246, 279-294).  The
cubic class has no third component; the other two fill column 2 `if len(new_points) == 3`,
i.e. when there are exactly three query points.  Calling `None` raises `TypeError`. -/
def ScatterState.interpolate (sp : SciPy K) (junk : List ℕ → K) (s : ScatterState K)
    (q : NDArray K) : Py (NDArray K) :=
  match s.interp with
  | none => .error .typeError
  | some (p, v0, v1) =>
    match sp.scatterCall s.method p v0 q with
    | .error e => .error e
    | .ok re =>
      match sp.scatterCall s.method p v1 q with
      | .error e => .error e
      | .ok im =>
        match assignCol (emptyLike junk q) 0 re with
        | .error e => .error e
        | .ok o0 =>
          match assignCol o0 1 im with
          | .error e => .error e
          | .ok o1 =>
            if s.method ≠ .cubic ∧ q.shape.headD 0 = 3 then
              match s.interpZ with
              | none => .error .attributeError
              | some (pz, v2) =>
                match sp.scatterCall s.method pz v2 q with
                | .error e => .error e
                | .ok z => assignCol o1 2 z
            else .ok o1

/-! ## `HighPerfInterpolator` -/

/-- Attributes of a `HighPerfInterpolator` (interpolate.py:327-339).  Of the three work
buffers only the lengths are recorded: their contents are overwritten before use.
`_u_buffer` and `_v_buffer` are always allocated together (`uLen`). -/
structure HighPerf (K : Type) where
  gridShape : List ℕ
  velocities : Option (NDArray K)
  points : Option (NDArray K)
  ix : Option (Interp K)
  iy : Option (Interp K)
  iz : Option (Interp K)
  uLen : Option ℕ
  wLen : Option ℕ

/-- A new object. -/
def HighPerf.fresh (gs : List ℕ) : HighPerf K := ⟨gs, none, none, none, none, none, none, none⟩

/-- All elements of an array. -/
def NDArray.toList (a : NDArray K) : List K :=
  (List.range a.size).map fun k => a.get (decC a.shape k)

/-- `np.min(a)`; `ValueError` for an empty array. -/
def npMin [Min K] (a : NDArray K) : Py K :=
  match a.toList with
  | [] => .error .valueError
  | x :: l => .ok (l.foldl min x)

/-- `np.max(a)`. -/
def npMax [Max K] (a : NDArray K) : Py K :=
  match a.toList with
  | [] => .error .valueError
  | x :: l => .ok (l.foldl max x)

section
variable [Sub K] [Div K] [NatCast K] [Min K] [Max K]

/-- `np.linspace(np.min(c), np.max(c), n)` as `min`/`delta` of an axis
(interpolate.py:365-374, 387-401; grid_interp.py:32-35). -/
def axisOf (c : NDArray K) (n : ℕ) : Py (Axis K) :=
  match npMin c with
  | .error e => .error e
  | .ok lo =>
    match npMax c with
    | .error e => .error e
    | .ok hi => .ok (Axis.linspace lo hi n)

/-- The objects built by `HighPerfInterpolator._initialize_interpolator`
(interpolate.py:356-424). -/
def HighPerf.build (gs : List ℕ) (v p : NDArray K) :
    Py (Interp K × Interp K × Option (Interp K)) :=
  match p.reshapeC (gs.length :: gs) with
  | .error e => .error e
  | .ok coords =>
    match gs with
    | [nx, ny] =>
      match v.reshapeF [2, nx, ny] with
      | .error e => .error e
      | .ok w =>
        match axisOf (coords.row 0) nx with
        | .error e => .error e
        | .ok ax =>
          match axisOf (coords.row 1) ny with
          | .error e => .error e
          | .ok ay => .ok (⟨w.row 0, [ax, ay]⟩, ⟨w.row 1, [ax, ay]⟩, none)
    | [nx, ny, nz] =>
      match v.reshapeC [3, nx, ny, nz] with
      | .error e => .error e
      | .ok w0 =>
        let w := w0.transpose [0, 2, 1, 3]
        match axisOf (coords.row 0) nx with
        | .error e => .error e
        | .ok ax =>
          match axisOf (coords.row 1) ny with
          | .error e => .error e
          | .ok ay =>
            match axisOf (coords.row 2) nz with
            | .error e => .error e
            | .ok az =>
              .ok (⟨w.row 0, [ax, ay, az]⟩, ⟨w.row 1, [ax, ay, az]⟩,
                some ⟨w.row 2, [ax, ay, az]⟩)
    | _ => .error .valueError

/-- `HighPerfInterpolator._initialize_interpolator` (interpolate.py:342-424). -/
def HighPerf.initialize (s : HighPerf K) : HighPerf K × Option PyErr :=
  match s.velocities, s.points with
  | some v, some p =>
    match HighPerf.build s.gridShape v p with
    | .error e => (s, some e)
    | .ok (x, y, z) => ({ s with ix := some x, iy := some y, iz := z }, none)
  | _, _ => (s, some .valueError)

/-- `velocities[c, :]`: needs two axes. -/
def rowColon (v : NDArray K) (c : ℕ) : Py (NDArray K) :=
  match v.shape with
  | r :: _ :: _ => if c < r then .ok (v.row c) else .error .indexError
  | _ => .error .indexError

/-- `HighPerfInterpolator.update` (interpolate.py:446-472). -/
def HighPerf.update (s : HighPerf K) (v : NDArray K) (p : Option (NDArray K)) :
    HighPerf K × Option PyErr :=
  let s1 := { s with velocities := some v }
  match p with
  | some p => HighPerf.initialize { s1 with points := some p }
  | none =>
    let setZ : HighPerf K → HighPerf K × Option PyErr := fun s2 =>
      match s2.iz with
      | none => (s2, none)
      | some z =>
        match rowColon v 2 with
        | .error e => (s2, some e)
        | .ok v2 => ({ s2 with iz := some { z with v := v2 } }, none)
    match s1.ix, s1.iy with
    | some x, some y =>
      match rowColon v 0 with
      | .error e => (s1, some e)
      | .ok v0 =>
        let s2 := { s1 with ix := some { x with v := v0 } }
        match rowColon v 1 with
        | .error e => (s2, some e)
        | .ok v1 => setZ { s2 with iy := some { y with v := v1 } }
    | _, _ => setZ s1

end

/-- `_ensure_buffers` (interpolate.py:427-443). -/
def HighPerf.ensureBuffers (s : HighPerf K) (n dim : ℕ) : HighPerf K :=
  if s.uLen = some n then s
  else if dim = 3 then { s with uLen := some n, wLen := some n }
  else { s with uLen := some n }

/-- The value a list holds at position `r`, `junk` outside (a buffer copied into a column of
the same length). -/
def listCol (l : List K) (junk : K) : ℕ → K := fun r => (l[r]?).getD junk

section
variable [Zero K] [One K] [Add K] [Sub K] [Mul K] [Div K] [DecidableEq K]

/-- `HighPerfInterpolator.interpolate` (interpolate.py:475-543) on a 2-D array of queries;
`new_points.shape[1]` raises `IndexError` for fewer axes. -/
def HighPerf.interpolate (m : CMachine K) (junk : List ℕ → K) (s : HighPerf K) (q : NDArray K) :
    HighPerf K × Py (NDArray K) :=
  match q.shape with
  | [n, dim] =>
    let s1 := s.ensureBuffers n dim
    let t : ℕ → ℕ → K := fun r c => q.get [r, c]
    let out := emptyLike junk q
    if dim = 2 then
      match s1.ix, s1.iy with
      | some x, some y =>
        match x.call m n dim t s1.uLen with
        | .error e => (s1, .error e)
        | .ok u =>
          match y.call m n dim t s1.uLen with
          | .error e => (s1, .error e)
          | .ok v =>
            (s1, .ok (setCol (setCol out 0 (listCol u (junk []))) 1 (listCol v (junk []))))
      | _, _ => (s1, .error .assertionError)
    else if dim = 3 then
      match s1.ix, s1.iy, s1.iz with
      | some x, some y, some z =>
        match x.call m n dim t s1.uLen with
        | .error e => (s1, .error e)
        | .ok u =>
          match y.call m n dim t s1.uLen with
          | .error e => (s1, .error e)
          | .ok v =>
            match z.call m n dim t s1.wLen with
            | .error e => (s1, .error e)
            | .ok w =>
              (s1, .ok (setCol (setCol (setCol out 0 (listCol u (junk []))) 1
                (listCol v (junk []))) 2 (listCol w (junk []))))
      | _, _, _ => (s1, .error .assertionError)
    else (s1, .error .valueError)
  | _ => (s, .error .indexError)

end

/-! ## `GridInterpolator` -/

/-- Attributes of a `GridInterpolator` (interpolate.py:584-600).  `ndim` does not exist
before the first initialisation; the three `RegularGridInterpolator` objects share the
method, and each has its own axes and values. -/
structure GridState (K : Type) where
  method : GridMethod
  gridShape : List ℕ
  velocities : Option (NDArray K)
  points : Option (NDArray K)
  ndim : Option ℕ
  ix : Option (List (K × K × ℕ) × NDArray K)
  iy : Option (List (K × K × ℕ) × NDArray K)
  iz : Option (List (K × K × ℕ) × NDArray K)

/-- A new object. -/
def GridState.fresh (method : GridMethod) (gs : List ℕ) : GridState K :=
  ⟨method, gs, none, none, none, none, none, none⟩

section
variable [Min K] [Max K]

/-- `np.linspace(points[c].min(), points[c].max(), n)`. -/
def gridAxis (p : NDArray K) (c n : ℕ) : Py (K × K × ℕ) :=
  match npMin (p.row c) with
  | .error e => .error e
  | .ok lo =>
    match npMax (p.row c) with
    | .error e => .error e
    | .ok hi => .ok (lo, hi, n)

/-- `RegularGridInterpolator(grid, velocities[c].reshape(vel_shape), method, ...)`. -/
def gridObject (sp : SciPy K) (method : GridMethod) (axes : List (K × K × ℕ)) (v : NDArray K)
    (c : ℕ) (sh : List ℕ) : Py (List (K × K × ℕ) × NDArray K) :=
  match rowAt v c with
  | .error e => .error e
  | .ok vc =>
    match vc.reshapeC sh with
    | .error e => .error e
    | .ok values =>
      match sp.gridBuild method axes values with
      | some e => .error e
      | none => .ok (axes, values)

/-- `GridInterpolator._initialize_interpolator` (interpolate.py:602-687). -/
def GridState.initialize (sp : SciPy K) (s : GridState K) : GridState K × Option PyErr :=
  match s.velocities, s.points with
  | some v, some p =>
    match p.shape with
    | [nd, npts] =>
      let s1 := { s with ndim := some nd }
      if s.gridShape.prod ≠ npts then (s1, some .valueError)
      else if nd ≠ 2 ∧ nd ≠ 3 then (s1, some .valueError)
      else
        match nd, s.gridShape with
        | 2, [nx, ny] =>
          match gridAxis p 0 nx with
          | .error e => (s1, some e)
          | .ok x =>
            match gridAxis p 1 ny with
            | .error e => (s1, some e)
            | .ok y =>
              match gridObject sp s.method [x, y] v 0 [nx, ny] with
              | .error e => (s1, some e)
              | .ok ox =>
                let s2 := { s1 with ix := some ox }
                match gridObject sp s.method [x, y] v 1 [nx, ny] with
                | .error e => (s2, some e)
                | .ok oy => ({ s2 with iy := some oy }, none)
        | 3, [nx, ny, nz] =>
          match gridAxis p 0 nx with
          | .error e => (s1, some e)
          | .ok x =>
            match gridAxis p 1 ny with
            | .error e => (s1, some e)
            | .ok y =>
              match gridAxis p 2 nz with
              | .error e => (s1, some e)
              | .ok z =>
                match gridObject sp s.method [x, y, z] v 0 [nx, ny, nz] with
                | .error e => (s1, some e)
                | .ok ox =>
                  let s2 := { s1 with ix := some ox }
                  match gridObject sp s.method [x, y, z] v 1 [nx, ny, nz] with
                  | .error e => (s2, some e)
                  | .ok oy =>
                    let s3 := { s2 with iy := some oy }
                    match gridObject sp s.method [x, y, z] v 2 [nx, ny, nz] with
                    | .error e => (s3, some e)
                    | .ok oz => ({ s3 with iz := some oz }, none)
        | _, _ => (s1, some .valueError)
    | _ => (s, some .valueError)
  | _, _ => (s, some .valueError)

/-- `self.interpolator.values = field`, on `None` raises `AttributeError`. -/
def setValues (o : Option (List (K × K × ℕ) × NDArray K)) (f : NDArray K) :
    Py (Option (List (K × K × ℕ) × NDArray K)) :=
  match o with
  | none => .error .attributeError
  | some (axes, _) => .ok (some (axes, f))

/-- `GridInterpolator.update` (interpolate.py:723-762).  The reshape targets are
`(self.ndim, *self.grid_shape)`. -/
def GridState.update (sp : SciPy K) (s : GridState K) (v : NDArray K) (p : Option (NDArray K)) :
    GridState K × Option PyErr :=
  match s.ix, p with
  | some x, none =>
    match s.ndim with
    | some 2 =>
      match v.reshapeF (2 :: s.gridShape) with
      | .error e => (s, some e)
      | .ok f =>
        let s1 := { s with ix := some (x.1, f.row 0) }
        match setValues s.iy (f.row 1) with
        | .error e => (s1, some e)
        | .ok y => ({ s1 with iy := y }, none)
    | some nd =>
      match v.reshapeC (nd :: s.gridShape) with
      | .error e => (s, some e)
      | .ok f =>
        match rowAt f 0 with
        | .error e => (s, some e)
        | .ok f0 =>
          let s1 := { s with ix := some (x.1, f0) }
          match rowAt f 1 with
          | .error e => (s1, some e)
          | .ok f1 =>
            match setValues s.iy f1 with
            | .error e => (s1, some e)
            | .ok y =>
              let s2 := { s1 with iy := y }
              match rowAt f 2 with
              | .error e => (s2, some e)
              | .ok f2 =>
                match setValues s.iz f2 with
                | .error e => (s2, some e)
                | .ok z => ({ s2 with iz := z }, none)
    | none => (s, some .attributeError)
  | _, _ =>
    GridState.initialize sp
      { s with
        velocities := some v
        points := match p with | none => s.points | some p => some p }

/-- One component: `result[:, c] = self.interpolator(new_points)`; calling `None` raises
`TypeError`. -/
def gridCol (sp : SciPy K) (method : GridMethod) (o : Option (List (K × K × ℕ) × NDArray K))
    (q out : NDArray K) (c : ℕ) : Py (NDArray K) :=
  match o with
  | none => .error .typeError
  | some (axes, values) =>
    match sp.gridCall method axes values q with
    | .error e => .error e
    | .ok f => assignCol out c f

/-- `GridInterpolator.interpolate` (interpolate.py:689-721). -/
def GridState.interpolate (sp : SciPy K) (junk : List ℕ → K) (s : GridState K) (q : NDArray K) :
    Py (NDArray K) :=
  match s.ix with
  | none => .error .valueError
  | some _ =>
    match gridCol sp s.method s.ix q (emptyLike junk q) 0 with
    | .error e => .error e
    | .ok o0 =>
      match gridCol sp s.method s.iy q o0 1 with
      | .error e => .error e
      | .ok o1 =>
        match s.ndim with
        | none => .error .attributeError
        | some nd => if nd = 3 then gridCol sp s.method s.iz q o1 2 else .ok o1

end

/-! ## `AnalyticalInterpolator` and the factory -/

/-- A user velocity function `velocity_fn(t, points)`. -/
abbrev VelocityFn (K : Type) := K → NDArray K → Py (NDArray K)

/-- Attributes of an `AnalyticalInterpolator` (interpolate.py:786-788); `none`: the object
assigned is not callable. -/
structure AnalyticalState (K : Type) where
  fn : Option (VelocityFn K)
  time : K

/-- `AnalyticalInterpolator(velocity_fn)`: `self.time = 0.0`. -/
def AnalyticalState.fresh [Zero K] (fn : Option (VelocityFn K)) : AnalyticalState K := ⟨fn, 0⟩

/-- `AnalyticalInterpolator.interpolate` (interpolate.py:790-812). -/
def AnalyticalState.interpolate (s : AnalyticalState K) (q : NDArray K) : Py (NDArray K) :=
  match s.fn with
  | none => .error .executableNotFoundError
  | some f => f s.time q

/-- `AnalyticalInterpolator.update` (interpolate.py:814-829): does nothing. -/
def AnalyticalState.update (s : AnalyticalState K) (_v : NDArray K) (_p : Option (NDArray K)) :
    AnalyticalState K × Option PyErr := (s, none)

/-- Any interpolator object. -/
inductive AnyInterp (K : Type) where
  | scatter (s : ScatterState K)
  | highPerf (s : HighPerf K)
  | grid (s : GridState K)
  | analytical (s : AnalyticalState K)

/-- `create_interpolator` (interpolate.py:832-901).  `lower` is `str.lower`;
`HighPerfInterpolator()` without its required argument raises `TypeError`. -/
def createInterpolator [Zero K] (lower : String → String) (name : String)
    (gridShape : Option (List ℕ)) (fn : Option (VelocityFn K)) : Py (AnyInterp K) :=
  let t := lower name
  if t ≠ "cubic" ∧ t ≠ "linear" ∧ t ≠ "nearest" ∧ t ≠ "analytical" ∧ t ≠ "grid" then
    .error .valueError
  else if t = "analytical" then
    match fn with
    | none => .error .executableNotFoundError
    | some f => .ok (.analytical (AnalyticalState.fresh (some f)))
  else
    match gridShape with
    | some gs =>
      if t ≠ "grid" then
        if t = "linear" then .ok (.grid (GridState.fresh .linear gs))
        else if t = "nearest" then .ok (.grid (GridState.fresh .nearest gs))
        else if t = "cubic" then .ok (.grid (GridState.fresh .cubic gs))
        else .error .valueError
      else .ok (.highPerf (HighPerf.fresh gs))
    | none =>
      if t = "cubic" then .ok (.scatter (ScatterState.fresh .cubic))
      else if t = "linear" then .ok (.scatter (ScatterState.fresh .linear))
      else if t = "nearest" then .ok (.scatter (ScatterState.fresh .nearest))
      else .error .typeError

section
variable [Zero K] [One K] [Add K] [Sub K] [Mul K] [Div K] [NatCast K] [Min K] [Max K]
  [DecidableEq K]

/-- `interpolator.update(velocities, points)`. -/
def AnyInterp.update (sp : SciPy K) (I : AnyInterp K) (v : NDArray K) (p : Option (NDArray K)) :
    AnyInterp K × Option PyErr :=
  match I with
  | .scatter s => let (s', e) := s.update sp v p; (.scatter s', e)
  | .highPerf s => let (s', e) := s.update v p; (.highPerf s', e)
  | .grid s => let (s', e) := s.update sp v p; (.grid s', e)
  | .analytical s => let (s', e) := s.update v p; (.analytical s', e)

/-- `interpolator.interpolate(new_points)`. -/
def AnyInterp.interpolate (sp : SciPy K) (m : CMachine K) (junk : List ℕ → K) (I : AnyInterp K)
    (q : NDArray K) : AnyInterp K × Py (NDArray K) :=
  match I with
  | .scatter s => (I, s.interpolate sp junk q)
  | .highPerf s => let (s', r) := s.interpolate m junk q; (.highPerf s', r)
  | .grid s => (I, s.interpolate sp junk q)
  | .analytical s => (I, s.interpolate q)

end

end Verif

import Verif.Model.Particles
import Mathlib.Algebra.Field.Basic

/-!
# Model of `src/pyftle/integrate.py`

The scalar type only needs `+`, `-`, `*`, `/` and the four literals that occur in the
code.  `interpolator.interpolate` is a parameter (a function of the query points that
may raise); the interpolators themselves are modelled in `Model/Interpolate.lean`.

Scratch arrays are part of the integrator state.  `np.empty_like` allocates an array
whose contents are an arbitrary function `junk`.
-/

namespace Verif

/-- The floating point literals used by the kernels: `0.5`, `1.5`, `2.0`, `6.0`. -/
class NumLits (K : Type*) where
  half : K
  onePointFive : K
  two : K
  six : K

instance fieldLits {K : Type*} [Field K] : NumLits K := ⟨1 / 2, 3 / 2, 2, 6⟩

variable {K : Type*}

/-- `interpolator.interpolate` for a fixed interpolator state. -/
abbrev Velocity (K : Type*) := NDArray K → Py (NDArray K)

/-- Does `src` broadcast to `dst` (NumPy rule for reversed shapes: trailing axes must be
equal or 1 in the source, which may have fewer axes)?  Assignments also accept a source
with more axes than the destination if the surplus leading axes have length one
(`PyArray_AssignArray` strips them). -/
def bcastOk : List ℕ → List ℕ → Bool
  | [], _ => true
  | s :: ss, [] => s == 1 && bcastOk ss []
  | s :: ss, d :: ds => (s == d || s == 1) && bcastOk ss ds

/-- Index into the source for an index of the destination (both reversed). -/
def bcastIdx : List ℕ → List ℕ → List ℕ
  | s :: ss, i :: is => (if s = 1 then 0 else i) :: bcastIdx ss is
  | _ :: ss, [] => 0 :: bcastIdx ss []
  | [], _ => []

/-- `np.copyto(dst, src)`: `dst` keeps its shape and receives the broadcast values of
`src`; raises `ValueError` when `src` cannot be broadcast.  The new contents of `dst`. -/
def copyto (dst src : NDArray K) : Py (NDArray K) :=
  if bcastOk src.shape.reverse dst.shape.reverse then
    .ok ⟨dst.shape, fun idx => src.get (bcastIdx src.shape.reverse idx.reverse).reverse⟩
  else .error .valueError

/-- `np.empty_like(a)`: same shape, arbitrary contents. -/
def emptyLike (junk : List ℕ → K) (a : NDArray K) : NDArray K := ⟨a.shape, junk⟩

/-- `euler_step_inplace` (integrate.py:16-44): `positions += h * velocity`. -/
def eulerKernel [Add K] [Mul K] (pos : NDArray K) (h : K) (v : NDArray K) : Py (NDArray K) :=
  NDArray.zipWith (fun x v => x + h * v) pos v

/-- `adams_bashforth_2_step_inplace` (integrate.py:47-78):
`positions += h * (1.5 * v_current - 0.5 * v_prev)`.  Arrays of different shapes raise
`ValueError`; particle arrays have 4N or 6N rows and 2 or 3 columns, so broadcasting of
axes of length one cannot occur. -/
def ab2Kernel [Add K] [Sub K] [Mul K] [NumLits K] (pos : NDArray K) (h : K) (v p : NDArray K) :
    Py (NDArray K) :=
  match NDArray.zipWith (fun v p => NumLits.onePointFive * v - NumLits.half * p) v p with
  | .error e => .error e
  | .ok w => NDArray.zipWith (fun x w => x + h * w) pos w

/-- `runge_kutta_4_step_inplace` (integrate.py:81-109):
`positions += (h / 6.0) * (k1 + 2.0 * k2 + 2.0 * k3 + k4)`. -/
def rk4Kernel [Add K] [Mul K] [Div K] [NumLits K] (pos : NDArray K) (h : K)
    (k1 k2 k3 k4 : NDArray K) : Py (NDArray K) :=
  match NDArray.zipWith (fun a b => a + NumLits.two * b) k1 k2 with
  | .error e => .error e
  | .ok s12 =>
    match NDArray.zipWith (fun a b => a + NumLits.two * b) s12 k3 with
    | .error e => .error e
    | .ok s123 =>
      match NDArray.zipWith (fun a b => a + b) s123 k4 with
      | .error e => .error e
      | .ok s => NDArray.zipWith (fun x s => x + (h / NumLits.six) * s) pos s

/-- The five work arrays of `RungeKutta4Integrator` (integrate.py:284-289), allocated
together. -/
structure Rk4Bufs (K : Type*) where
  k1 : NDArray K
  k2 : NDArray K
  k3 : NDArray K
  k4 : NDArray K
  tmp : NDArray K

/-- An integrator object: its class and its attributes (`None` before first use). -/
inductive Integ (K : Type*) where
  | euler (velocity : Option (NDArray K))
  | ab2 (previous : Option (NDArray K)) (velocity : Option (NDArray K))
  | rk4 (bufs : Option (Rk4Bufs K))

/-- The three integrator classes. -/
inductive Kind where
  | euler | ab2 | rk4
  deriving DecidableEq, Repr

/-- A newly constructed integrator (integrate.py:172-175, 218-221, 281-289). -/
def Integ.fresh : Kind → Integ K
  | .euler => .euler none
  | .ab2 => .ab2 none none
  | .rk4 => .rk4 none

/-- `if buf is None or buf.shape != positions.shape: buf = np.empty_like(positions)`
(integrate.py:189-190, 239-240). -/
def reuseOrAlloc (junk : List ℕ → K) (buf : Option (NDArray K)) (pos : NDArray K) : NDArray K :=
  match buf with
  | none => emptyLike junk pos
  | some b => if b.shape ≠ pos.shape then emptyLike junk pos else b

/-- Five newly allocated work arrays (integrate.py:311-315). -/
def rk4Alloc (junk : List ℕ → K) (pos : NDArray K) : Rk4Bufs K :=
  ⟨emptyLike junk pos, emptyLike junk pos, emptyLike junk pos, emptyLike junk pos,
    emptyLike junk pos⟩

/-- Lazy allocation in the RK4 integrator (integrate.py:307-315): only `_k1` is inspected
to decide about reallocation. -/
def rk4Bufs (junk : List ℕ → K) (bufs : Option (Rk4Bufs K)) (pos : NDArray K) : Rk4Bufs K :=
  match bufs with
  | none => rk4Alloc junk pos
  | some b => if b.k1.shape ≠ pos.shape then rk4Alloc junk pos else b

/-- `np.copyto(buf, self.interpolator.interpolate(points))` (integrate.py:193, 243, 324, 329, 334,
339). -/
def fillFrom (buf : NDArray K) (vel : Velocity K) (points : NDArray K) : Py (NDArray K) :=
  match vel points with
  | .error e => .error e
  | .ok v => copyto buf v

/-- `np.copyto(tmp, positions); tmp += c * k` (integrate.py:327-328, 332-333, 337-338).
Python evaluates `0.5 * h * k` as `(0.5 * h) * k`. -/
def stagePoint [Add K] [Mul K] (tmp pos : NDArray K) (c : K) (k : NDArray K) : Py (NDArray K) :=
  match copyto tmp pos with
  | .error e => .error e
  | .ok t => NDArray.zipWith (fun x k => x + c * k) t k

variable [Add K] [Sub K] [Mul K] [Div K] [NumLits K]

/-- `EulerIntegrator.integrate` (integrate.py:177-196).  Returns the new work array and
the new positions, or the exception (positions are then unchanged). -/
def eulerStep (junk : List ℕ → K) (vel : Velocity K) (h : K) (buf : Option (NDArray K))
    (pos : NDArray K) : Integ K × Py (NDArray K) :=
  let b := reuseOrAlloc junk buf pos
  match fillFrom b vel pos with
  | .error e => (.euler (some b), .error e)
  | .ok v => (.euler (some v), eulerKernel pos h v)

/-- `AdamsBashforth2Integrator.integrate` (integrate.py:223-257). -/
def ab2Step (junk : List ℕ → K) (vel : Velocity K) (h : K) (prev buf : Option (NDArray K))
    (pos : NDArray K) : Integ K × Py (NDArray K) :=
  let b := reuseOrAlloc junk buf pos
  match fillFrom b vel pos with
  | .error e => (.ab2 prev (some b), .error e)
  | .ok v =>
    match prev with
    | none =>
      match eulerKernel pos h v with
      | .error e => (.ab2 none (some v), .error e)
      | .ok pos' =>
        match copyto (emptyLike junk v) v with
        | .error e => (.ab2 (some (emptyLike junk v)) (some v), .error e)
        | .ok p' => (.ab2 (some p') (some v), .ok pos')
    | some p =>
      match ab2Kernel pos h v p with
      | .error e => (.ab2 (some p) (some v), .error e)
      | .ok pos' =>
        match copyto p v with
        | .error e => (.ab2 (some p) (some v), .error e)
        | .ok p' => (.ab2 (some p') (some v), .ok pos')

/-- `RungeKutta4Integrator.integrate` (integrate.py:291-342). -/
def rk4Step (junk : List ℕ → K) (vel : Velocity K) (h : K) (bufs : Option (Rk4Bufs K))
    (pos : NDArray K) : Integ K × Py (NDArray K) :=
  let b := rk4Bufs junk bufs pos
  match fillFrom b.k1 vel pos with
  | .error e => (.rk4 (some b), .error e)
  | .ok k1 =>
    match stagePoint b.tmp pos (NumLits.half * h) k1 with
    | .error e => (.rk4 (some { b with k1 := k1 }), .error e)
    | .ok t1 =>
      match fillFrom b.k2 vel t1 with
      | .error e => (.rk4 (some { b with k1 := k1, tmp := t1 }), .error e)
      | .ok k2 =>
        match stagePoint t1 pos (NumLits.half * h) k2 with
        | .error e => (.rk4 (some { b with k1 := k1, k2 := k2, tmp := t1 }), .error e)
        | .ok t2 =>
          match fillFrom b.k3 vel t2 with
          | .error e => (.rk4 (some { b with k1 := k1, k2 := k2, tmp := t2 }), .error e)
          | .ok k3 =>
            match stagePoint t2 pos h k3 with
            | .error e =>
              (.rk4 (some { b with k1 := k1, k2 := k2, k3 := k3, tmp := t2 }), .error e)
            | .ok t3 =>
              match fillFrom b.k4 vel t3 with
              | .error e => (.rk4 (some ⟨k1, k2, k3, b.k4, t3⟩), .error e)
              | .ok k4 => (.rk4 (some ⟨k1, k2, k3, k4, t3⟩), rk4Kernel pos h k1 k2 k3 k4)

/-- `integrator.integrate(h, particles)` as a function of the positions. -/
def Integ.step (junk : List ℕ → K) (vel : Velocity K) (h : K) :
    Integ K → NDArray K → Integ K × Py (NDArray K)
  | .euler buf, pos => eulerStep junk vel h buf pos
  | .ab2 prev buf, pos => ab2Step junk vel h prev buf pos
  | .rk4 bufs, pos => rk4Step junk vel h bufs pos

/-- `integrator.integrate(h, particles)`: only `particles.positions` is assigned, in
place; if an exception is raised the positions are unchanged. -/
def Integ.integrate (junk : List ℕ → K) (vel : Velocity K) (h : K) (I : Integ K)
    (p : Particles K) : Integ K × Particles K × Option PyErr :=
  match I.step junk vel h p.positions with
  | (I', .ok pos) => (I', { p with positions := pos }, none)
  | (I', .error e) => (I', p, some e)

/-- Consecutive successful calls of `integrate` with the given velocity sources and steps;
the first exception stops the sequence. -/
def Integ.steps (junk : List ℕ → K) :
    List (Velocity K × K) → Integ K → NDArray K → Integ K × Py (NDArray K)
  | [], I, pos => (I, .ok pos)
  | (vel, h) :: rest, I, pos =>
    match I.step junk vel h pos with
    | (I', .error e) => (I', .error e)
    | (I', .ok pos') => Integ.steps junk rest I' pos'

end Verif

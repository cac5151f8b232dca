import Verif.Py.NDArray
import Mathlib.Algebra.Order.Floor.Ring
import Mathlib.Data.Rat.Floor

/-!
# Model of `src/pyftle/grid_interp/` (C++ kernels and their Python wrappers)

The kernels work on raw pointers and 32-bit `int`s.  The integer operations are the
parameter `CMachine`, with two instances: `isoCpp`, in which every overflowing operation
or out-of-range conversion is undefined behaviour (the C++ standard), and `x86`, in which
the conversion of an out-of-range number gives `INT_MIN` (`cvttsd2si`) and additions and
multiplications wrap (what the usual compilers emit).

Scalars are of a type `K` of finite numbers; an index coordinate is an `Option K`, where
`none` is a non-finite number (`inf` or `nan`, the result of NumPy's division by zero).
The arrays are `float64` and the conversions made by `py::array_t<..., forcecast>` are
the identity.
-/

namespace Verif

/-- `INT_MAX + 1 = 2^31`. -/
notation "intLim" => (2147483648 : ℤ)

/-- Is `z` representable in a 32-bit `int`? -/
def InInt32 (z : ℤ) : Prop := -intLim ≤ z ∧ z < intLim

instance (z : ℤ) : Decidable (InInt32 z) := inferInstanceAs (Decidable (_ ∧ _))

/-- Reduction to 32 bits, two's complement. -/
def wrap32 (z : ℤ) : ℤ := (z + intLim) % (2 * intLim) - intLim

/-- The integer operations of the target machine that the kernels use. -/
structure CMachine (K : Type) where
  /-- `static_cast<int>(std::floor(p))`. -/
  castFloor : Option K → Py ℤ
  /-- `int + int`. -/
  add : ℤ → ℤ → Py ℤ
  /-- `int * int`. -/
  mul : ℤ → ℤ → Py ℤ
  /-- implicit conversion `int → double`. -/
  ofInt : ℤ → K

/-- The C++ standard: out-of-range conversions and signed overflow are undefined. -/
def isoCpp {K : Type} (floor : K → ℤ) (ofInt : ℤ → K) : CMachine K where
  castFloor p :=
    match p with
    | none => .error .undefinedBehaviour
    | some p => if InInt32 (floor p) then .ok (floor p) else .error .undefinedBehaviour
  add a b := if InInt32 (a + b) then .ok (a + b) else .error .undefinedBehaviour
  mul a b := if InInt32 (a * b) then .ok (a * b) else .error .undefinedBehaviour
  ofInt := ofInt

/-- x86-64 code without overflow-based optimisation: `cvttsd2si` yields `INT_MIN` for
everything that does not fit, additions and multiplications wrap. -/
def x86 {K : Type} (floor : K → ℤ) (ofInt : ℤ → K) : CMachine K where
  castFloor p :=
    match p with
    | none => .ok (-intLim)
    | some p => if InInt32 (floor p) then .ok (floor p) else .ok (-intLim)
  add a b := .ok (wrap32 (a + b))
  mul a b := .ok (wrap32 (a * b))
  ofInt := ofInt

variable {K : Type}

/-- `v_ptr[k]` for a C-contiguous array: element number `k` in C order, undefined outside
the allocation. -/
def flatRead (v : NDArray K) (k : ℤ) : Py K :=
  if 0 ≤ k ∧ k < (v.shape.prod : ℤ) then .ok (v.get (decC v.shape k.toNat))
  else .error .undefinedBehaviour

/-- Loop body of `interp2d_vec_inplace` (GridInterp.cpp:104-141) for one query `(px, py)`
and a field of shape `(nx, ny)`.  The index `xi * ny + yi` is computed in 64 bits and does
not overflow for arrays that fit into memory.  A non-finite coordinate inside the `if`
would make the result `nan`; this is reported as undefined behaviour so that theorems have
to exclude it. -/
def interp2dAt [Zero K] [One K] [Add K] [Sub K] [Mul K] (m : CMachine K) (v : NDArray K)
    (nx0 ny0 : ℕ) (px py : Option K) : Py K := do
  let nx := wrap32 nx0
  let ny := wrap32 ny0
  let x0 ← m.castFloor px
  let y0 ← m.castFloor py
  let x1 ← m.add x0 1
  let y1 ← m.add y0 1
  if 0 ≤ x0 ∧ x1 < nx ∧ 0 ≤ y0 ∧ y1 < ny then
    let idx : ℤ → ℤ → ℤ := fun xi yi => xi * ny + yi
    let v00 ← flatRead v (idx x0 y0)
    let v10 ← flatRead v (idx x1 y0)
    let v01 ← flatRead v (idx x0 y1)
    let v11 ← flatRead v (idx x1 y1)
    match px, py with
    | some px, some py =>
      let xd := px - m.ofInt x0
      let yd := py - m.ofInt y0
      .ok (v00 * (1 - xd) * (1 - yd) + v10 * xd * (1 - yd) + v01 * (1 - xd) * yd
        + v11 * xd * yd)
    | _, _ => .error .undefinedBehaviour
  else .ok 0

/-- Loop body of `interp3d_vec_inplace` (GridInterp.cpp:37-90, including `YZ = Y * Z` of
line 37) for one query and a field of shape `(X, Y, Z)`. -/
def interp3dAt [Zero K] [One K] [Add K] [Sub K] [Mul K] (m : CMachine K) (v : NDArray K)
    (X0 Y0 Z0 : ℕ) (px py pz : Option K) : Py K := do
  let X := wrap32 X0
  let Y := wrap32 Y0
  let Z := wrap32 Z0
  let YZ ← m.mul Y Z
  let x0 ← m.castFloor px
  let y0 ← m.castFloor py
  let z0 ← m.castFloor pz
  let x1 ← m.add x0 1
  let y1 ← m.add y0 1
  let z1 ← m.add z0 1
  if 0 ≤ x0 ∧ x1 < X ∧ 0 ≤ y0 ∧ y1 < Y ∧ 0 ≤ z0 ∧ z1 < Z then
    let idx : ℤ → ℤ → ℤ → ℤ := fun xi yi zi => xi * YZ + yi * Z + zi
    let v000 ← flatRead v (idx x0 y0 z0)
    let v100 ← flatRead v (idx x1 y0 z0)
    let v001 ← flatRead v (idx x0 y0 z1)
    let v101 ← flatRead v (idx x1 y0 z1)
    let v010 ← flatRead v (idx x0 y1 z0)
    let v110 ← flatRead v (idx x1 y1 z0)
    let v011 ← flatRead v (idx x0 y1 z1)
    let v111 ← flatRead v (idx x1 y1 z1)
    match px, py, pz with
    | some px, some py, some pz =>
      let xd := px - m.ofInt x0
      let yd := py - m.ofInt y0
      let zd := pz - m.ofInt z0
      let c00 := v000 * (1 - xd) + v100 * xd
      let c01 := v001 * (1 - xd) + v101 * xd
      let c10 := v010 * (1 - xd) + v110 * xd
      let c11 := v011 * (1 - xd) + v111 * xd
      let c0 := c00 * (1 - yd) + c10 * yd
      let c1 := c01 * (1 - yd) + c11 * yd
      .ok (c0 * (1 - zd) + c1 * zd)
    | _, _, _ => .error .undefinedBehaviour
  else .ok 0

/-- `interp2d_vec_inplace(v, points, out)` (GridInterp.cpp:93-142).  `pts` are the rows of
`points` (whose second dimension is `cols`), `outLen` is the length of `out` (`none` when
`None` is passed, which pybind11 rejects with `TypeError`); the result is the new contents
of `out`. -/
def interp2dVec [Zero K] [One K] [Add K] [Sub K] [Mul K] (m : CMachine K) (v : NDArray K)
    (cols : ℕ) (pts : List (List (Option K))) (outLen : Option ℕ) : Py (List K) :=
  match outLen with
  | none => .error .typeError
  | some n =>
    match v.shape with
    | [nx, ny] =>
      if cols ≠ 2 then .error .runtimeError
      else if n ≠ pts.length then .error .runtimeError
      else pyMap (fun p =>
        match p with
        | [px, py] => interp2dAt m v nx ny px py
        | _ => .error .undefinedBehaviour) pts
    | _ => .error .runtimeError

/-- `interp3d_vec_inplace(v, points, out)` (GridInterp.cpp:15-91). -/
def interp3dVec [Zero K] [One K] [Add K] [Sub K] [Mul K] (m : CMachine K) (v : NDArray K)
    (cols : ℕ) (pts : List (List (Option K))) (outLen : Option ℕ) : Py (List K) :=
  match outLen with
  | none => .error .typeError
  | some n =>
    match v.shape with
    | [X, Y, Z] =>
      if cols ≠ 3 then .error .runtimeError
      else if n ≠ pts.length then .error .runtimeError
      else pyMap (fun p =>
        match p with
        | [px, py, pz] => interp3dAt m v X Y Z px py pz
        | _ => .error .undefinedBehaviour) pts
    | _ => .error .runtimeError

/-- One axis of an `Interp2D`/`Interp3D` object: `min` and `delta` (`none`: not a finite
number). -/
structure Axis (K : Type) where
  min : K
  delta : Option K

/-- `self.min, self.delta` for the axis `np.linspace(lo, hi, n)` with `n ≥ 1`
(grid_interp.py:32-35, 114-119 after interpolate.py:365-374, 387-401): `x[0] = lo`,
`x[-1] = hi` (`lo` when `n = 1`), `delta = (x[-1] - x[0]) / (n - 1)`, which is `nan` for
`n = 1`. -/
def Axis.linspace [Sub K] [Div K] [NatCast K] (lo hi : K) (n : ℕ) : Axis K :=
  ⟨lo, if n = 1 then none else some ((hi - lo) / ((n - 1 : ℕ) : K))⟩

/-- `(arr[:, c] - self.min) / self.delta` for one entry (grid_interp.py:78-79, 164-166): a
zero or non-finite `delta` gives a non-finite number. -/
def Axis.index [Sub K] [Div K] [Zero K] [DecidableEq K] (a : Axis K) (x : K) : Option K :=
  match a.delta with
  | none => none
  | some d => if d = 0 then none else some ((x - a.min) / d)

/-- An `Interp2D` (two axes) or `Interp3D` (three axes) object: grid values and axes
(grid_interp.py:30-38, 112-121).  The buffer of index coordinates is completely rewritten
by every call (reallocated when the number of queries changes) and is not part of the
model. -/
structure Interp (K : Type) where
  v : NDArray K
  axes : List (Axis K)

/-- `interp(t, out)` (grid_interp.py:69-85, 155-172) on queries of shape `(n, cols)`: the
index coordinates of every row, then the kernel.  `arr[:, c]` with `c ≥ cols` raises
`IndexError`. -/
def Interp.call [Zero K] [One K] [Add K] [Sub K] [Mul K] [Div K] [DecidableEq K]
    (m : CMachine K) (it : Interp K) (n cols : ℕ) (t : ℕ → ℕ → K) (outLen : Option ℕ) :
    Py (List K) :=
  if cols < it.axes.length then .error .indexError
  else
    let pts := (List.range n).map fun r => it.axes.zipIdx.map fun (a, c) => a.index (t r c)
    match it.axes.length with
    | 2 => interp2dVec m it.v cols pts outLen
    | _ => interp3dVec m it.v cols pts outLen

end Verif

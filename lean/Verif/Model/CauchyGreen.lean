import Verif.Model.Particles
import Mathlib.LinearAlgebra.Matrix.Notation

/-!
# Model of `src/pyftle/cauchy_green.py`

The kernels are numba-compiled: array reads are unchecked (`NDArray.read`, reading
outside is undefined behaviour) and a scalar division by zero raises
`ZeroDivisionError` (numba's default `error_model="python"`).  The result array of
shape `(N, d, d)` is a list of `N` matrices.
-/

namespace Verif

variable {K : Type*}

/-- Scalar division in Python / numba: raises on a zero divisor. -/
def pyDiv [Div K] [Zero K] [BEq K] (a b : K) : Py K :=
  if b == 0 then .error .zeroDivisionError else .ok (a / b)

/-- One assignment `jacobian[i, r, c] = d[i, r] / D[i, c]` of the kernels. -/
def jacEntry [Div K] [Zero K] [BEq K] (d D : NDArray K) (i r c : ℕ) : Py K :=
  match d.read [i, r] with
  | .error e => .error e
  | .ok x =>
    match D.read [i, c] with
    | .error e => .error e
    | .ok y => pyDiv x y

/-- Loop body of `_compute_flow_map_jacobian_in_numba` (cauchy_green.py:70-74); the
four assignments in program order. -/
def jac2Body [Div K] [Zero K] [BEq K] (drl irl dtb itb : NDArray K) (i : ℕ) :
    Py (Matrix (Fin 2) (Fin 2) K) :=
  match jacEntry drl irl i 0 0 with
  | .error e => .error e
  | .ok a =>
    match jacEntry dtb itb i 0 1 with
    | .error e => .error e
    | .ok b =>
      match jacEntry drl irl i 1 0 with
      | .error e => .error e
      | .ok c =>
        match jacEntry dtb itb i 1 1 with
        | .error e => .error e
        | .ok d => .ok !![a, b; c, d]

/-- Loop body of `_compute_flow_map_jacobian_in_numba_3x3` (cauchy_green.py:140-151). -/
def jac3Body [Div K] [Zero K] [BEq K] (drl irl dtb itb dfb ifb : NDArray K) (i : ℕ) :
    Py (Matrix (Fin 3) (Fin 3) K) := do
  let a00 ← jacEntry drl irl i 0 0
  let a01 ← jacEntry dtb itb i 0 1
  let a02 ← jacEntry dfb ifb i 0 2
  let a10 ← jacEntry drl irl i 1 0
  let a11 ← jacEntry dtb itb i 1 1
  let a12 ← jacEntry dfb ifb i 1 2
  let a20 ← jacEntry drl irl i 2 0
  let a21 ← jacEntry dtb itb i 2 1
  let a22 ← jacEntry dfb ifb i 2 2
  return !![a00, a01, a02; a10, a11, a12; a20, a21, a22]

/-- `compute_flow_map_jacobian_2x2` (cauchy_green.py:157-181) with its kernel
(cauchy_green.py:16-76): `N = positions.shape[0] // 4` groups. -/
def jacobian2 [Sub K] [Div K] [Zero K] [BEq K] (p : Particles K) :
    Py (List (Matrix (Fin 2) (Fin 2) K)) :=
  match p.deltaRL with
  | .error e => .error e
  | .ok drl =>
    match p.deltaTB with
    | .error e => .error e
    | .ok dtb =>
      pyMap (jac2Body drl p.initialDeltaRL dtb p.initialDeltaTB)
        (List.range (p.positions.shape.headD 0 / 4))

/-- `compute_flow_map_jacobian_3x3` (cauchy_green.py:184-210) with its kernel
(cauchy_green.py:80-153): `N = positions.shape[0] // 6` groups. -/
def jacobian3 [Sub K] [Div K] [Zero K] [BEq K] (p : Particles K) :
    Py (List (Matrix (Fin 3) (Fin 3) K)) :=
  match p.deltaRL with
  | .error e => .error e
  | .ok drl =>
    match p.deltaTB with
    | .error e => .error e
    | .ok dtb =>
      match p.deltaFB with
      | .error e => .error e
      | .ok dfb =>
        pyMap (jac3Body drl p.initialDeltaRL dtb p.initialDeltaTB dfb p.initialDeltaFB)
          (List.range (p.positions.shape.headD 0 / 6))

end Verif

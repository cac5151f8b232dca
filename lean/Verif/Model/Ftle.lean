import Verif.Py.Basic
import Mathlib.LinearAlgebra.Matrix.Notation
import Mathlib.LinearAlgebra.Matrix.Charpoly.Basic
import Mathlib.Analysis.SpecialFunctions.Log.Basic
import Mathlib.Algebra.Polynomial.Roots
import Mathlib.Analysis.Real.Sqrt

/-!
# Model of `src/pyftle/ftle.py`

The algebraic kernels are polymorphic in the scalar type; the FTLE itself is modelled
over ℝ (exact arithmetic).  Results are extended reals with a NaN (`FVal`), because
`np.sqrt` of a negative number and `np.log(0)` do not raise.

Contract assumed for `np.linalg.eigvals`: it returns the roots of the characteristic
polynomial with multiplicity, as a real array when all of them are real.
-/

namespace Verif

/-- A value of a floating point array in the exact-arithmetic model. -/
inductive FVal where
  | fin (x : ℝ)
  | posInf
  | negInf
  | nan

namespace FVal

/-- `np.sqrt`: NaN (with a warning) for negative arguments. -/
noncomputable def sqrt : FVal → FVal
  | fin x => if x < 0 then nan else fin (Real.sqrt x)
  | posInf => posInf
  | negInf => nan
  | nan => nan

/-- `np.log`: `-inf` at 0, NaN for negative arguments. -/
noncomputable def log : FVal → FVal
  | fin x => if x < 0 then nan else if x = 0 then negInf else fin (Real.log x)
  | posInf => posInf
  | negInf => nan
  | nan => nan

/-- Multiplication by a finite scalar, IEEE rules. -/
noncomputable def smul (c : ℝ) : FVal → FVal
  | fin x => fin (c * x)
  | posInf => if c < 0 then negInf else if c = 0 then nan else posInf
  | negInf => if c < 0 then posInf else if c = 0 then nan else negInf
  | nan => nan

/-- The value is an ordinary number. -/
def IsFinite : FVal → Prop
  | fin _ => True
  | _ => False

end FVal

section generic

variable {K : Type*}

/-- Loop body of `compute_cauchy_green_2x2` (ftle.py:62-67). -/
def cauchyGreen2 [Add K] [Mul K] (F : Matrix (Fin 2) (Fin 2) K) : Matrix (Fin 2) (Fin 2) K :=
  !![F 0 0 * F 0 0 + F 1 0 * F 1 0, F 0 0 * F 0 1 + F 1 0 * F 1 1;
     F 0 1 * F 0 0 + F 1 1 * F 1 0, F 0 1 * F 0 1 + F 1 1 * F 1 1]

/-- `trace` of `max_eigenvalue_2x2` (ftle.py:156). -/
def trace2 [Add K] (C : Matrix (Fin 2) (Fin 2) K) : K := C 0 0 + C 1 1

/-- `trace**2 - 4 * determinant` of `max_eigenvalue_2x2` (ftle.py:156-158), the number
under the square root; `four` is the literal 4 converted to the scalar type. -/
def disc2 [Add K] [Sub K] [Mul K] (four : K) (C : Matrix (Fin 2) (Fin 2) K) : K :=
  trace2 C * trace2 C - four * (C 0 0 * C 1 1 - C 0 1 * C 1 0)

end generic

/-- `compute_cauchy_green_3x3` (ftle.py:96), one matrix of the batch: `F @ F^T`. -/
def cauchyGreen3 (F : Matrix (Fin 3) (Fin 3) ℝ) : Matrix (Fin 3) (Fin 3) ℝ := F * F.transpose

/-- Loop body of `max_eigenvalue_2x2` (ftle.py:149-161).  If the square root is NaN both
candidates are NaN and so is their maximum. -/
noncomputable def maxEig2 (C : Matrix (Fin 2) (Fin 2) ℝ) : FVal :=
  match FVal.sqrt (.fin (disc2 4 C)) with
  | .fin s => .fin (max (1 / 2 * (trace2 C + s)) (1 / 2 * (trace2 C - s)))
  | _ => .nan

/-- `max_eigenvalue_3x3` (ftle.py:118-119), one matrix of the batch.  If the
characteristic polynomial has non-real roots, `eigvals` returns complex numbers; that
case is outside the model (`undefinedBehaviour`) and shown to be unreachable. -/
noncomputable def maxEig3 (C : Matrix (Fin 3) (Fin 3) ℝ) : Py FVal :=
  if C.charpoly.roots.card = 3 then
    match C.charpoly.roots.toList.max? with
    | some m => .ok (.fin m)
    | none => .error .valueError
  else .error .undefinedBehaviour

/-- `1 / map_period`: raises for a zero period (Python float and numba alike). -/
noncomputable def recipPeriod (T : ℝ) : Py ℝ :=
  if T = 0 then .error .zeroDivisionError else .ok (1 / T)

/-- `compute_ftle_2x2` (ftle.py:196-198). -/
noncomputable def ftle2 (Js : List (Matrix (Fin 2) (Fin 2) ℝ)) (T : ℝ) : Py (List FVal) :=
  let eigs := (Js.map cauchyGreen2).map maxEig2
  match recipPeriod T with
  | .error e => .error e
  | .ok r => .ok (eigs.map fun l => FVal.smul r (FVal.log (FVal.sqrt l)))

/-- `compute_ftle_3x3` (ftle.py:230-233). -/
noncomputable def ftle3 (Js : List (Matrix (Fin 3) (Fin 3) ℝ)) (T : ℝ) : Py (List FVal) :=
  match pyMap maxEig3 (Js.map cauchyGreen3) with
  | .error e => .error e
  | .ok eigs =>
    match recipPeriod T with
    | .error e => .error e
    | .ok r => .ok (eigs.map fun l => FVal.smul r (FVal.log (FVal.sqrt l)))

end Verif

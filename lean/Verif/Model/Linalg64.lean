import Verif.Model.Ftle64
import Verif.Spec.Stretch

/-!
# The 3-D kernel of `src/pyftle/ftle.py` in binary64

The matrix product and the eigenvalues are computed by NumPy (BLAS and LAPACK); they are parameters
(`Linalg`), and `Linalg.Accurate` states what is assumed of them.
-/

namespace Verif

open Matrix

/-- `A @ B` and `np.linalg.eigvals(C)` for one 3x3 matrix of a batch.  `none`: an eigenvalue is not
real (NumPy then returns complex numbers for the whole batch). -/
structure Linalg where
  mul : Matrix (Fin 3) (Fin 3) Fl → Matrix (Fin 3) (Fin 3) Fl → Matrix (Fin 3) (Fin 3) Fl
  eigvals : Matrix (Fin 3) (Fin 3) Fl → Option (Fin 3 → Fl)

/-- The real matrix a matrix of binary64 numbers stands for. -/
noncomputable def Linalg.real (C : Matrix (Fin 3) (Fin 3) Fl) : Matrix (Fin 3) (Fin 3) ℝ :=
  fun i j => (C i j).re

/-- Contract.  Products: the bound for sums of three products in any order, with or without fused
operations; `F @ F^T` is symmetric (entries `(i, j)` and `(j, i)` are the same sums).  Eigenvalues
of a symmetric matrix: real, and the largest one is accurate to `μ` times the size of the matrix. -/
structure Linalg.Accurate (la : Linalg) (μ : ℝ) : Prop where
  mul : ∀ A B i j, |(la.mul A B i j).re - ∑ k, (A i k).re * (B k j).re| ≤
    4 * 2 ^ (-53 : ℤ) * ∑ k, |(A i k).re| * |(B k j).re| + 2 ^ (-1070 : ℤ)
  symm : ∀ F, (la.mul F Fᵀ)ᵀ = la.mul F Fᵀ
  eig : ∀ C, Cᵀ = C → ∃ w, la.eigvals C = some w ∧
    ∀ l, IsGreatest {x | IsEigenvalue (Linalg.real C) x} l →
      |max (max (w 0).re (w 1).re) (w 2).re - l| ≤ μ * ∑ i, ∑ j, |(C i j).re|

/-- `max_eigenvalue_3x3` (ftle.py:118-119) in binary64, one matrix of the batch.  Complex numbers
are outside the model; `Linalg.Accurate` excludes them. -/
def maxEig64x3 (la : Linalg) (C : Matrix (Fin 3) (Fin 3) Fl) : Py Val64 :=
  match la.eigvals C with
  | none => .error .undefinedBehaviour
  | some w => .ok (.fin (max (max (w 0) (w 1)) (w 2)))

/-- `compute_ftle_3x3` (ftle.py:230-233) in binary64, with `compute_cauchy_green_3x3`
(ftle.py:96). -/
def ftle64x3 (m : Libm) (la : Linalg) (Js : List (Matrix (Fin 3) (Fin 3) Fl)) (T : Fl) :
    Py (List Val64) :=
  match pyMap (maxEig64x3 la) (Js.map fun F => la.mul F Fᵀ) with
  | .error e => .error e
  | .ok eigs =>
    if T.val = 0 then .error .zeroDivisionError
    else .ok (eigs.map fun l => Val64.smul (1 / T) (Val64.log m (Val64.sqrt m l)))

end Verif

import Verif.Model.Ftle
import Verif.Model.Integrate
import Verif.Model.GridInterp

/-!
# Missing data

Numbers that may be NaN, as in masked velocity files or outside the hull of scattered data, and the
kernels of `src/pyftle/ftle.py` on them.  Arithmetic is that of the underlying type; an operation
with a NaN gives a NaN.  Infinities are not modelled.
-/

namespace Verif

/-- A number or NaN.  Equality of the model identifies NaNs; the code compares numbers only with
zero, and NaN differs from it here too. -/
inductive Miss (K : Type) where
  | num (x : K)
  | nan
  deriving DecidableEq

namespace Miss
variable {K : Type}

/-- An IEEE operation of two arguments. -/
def map2 (f : K → K → K) : Miss K → Miss K → Miss K
  | num a, num b => num (f a b)
  | _, _ => nan

instance [Zero K] : Zero (Miss K) := ⟨num 0⟩
instance [One K] : One (Miss K) := ⟨num 1⟩
instance [NatCast K] : NatCast (Miss K) := ⟨fun n => num n⟩
instance [IntCast K] : IntCast (Miss K) := ⟨fun n => num n⟩
instance [Add K] : Add (Miss K) := ⟨map2 (· + ·)⟩
instance [Sub K] : Sub (Miss K) := ⟨map2 (· - ·)⟩
instance [Mul K] : Mul (Miss K) := ⟨map2 (· * ·)⟩
instance [Div K] : Div (Miss K) := ⟨map2 (· / ·)⟩
/-- `np.min`, `np.max` propagate NaN. -/
instance [Min K] : Min (Miss K) := ⟨map2 min⟩
instance [Max K] : Max (Miss K) := ⟨map2 max⟩
instance [NumLits K] : NumLits (Miss K) :=
  ⟨num NumLits.half, num NumLits.onePointFive, num NumLits.two, num NumLits.six⟩

/-- As a value of a result array. -/
def toF : Miss ℝ → FVal
  | num x => .fin x
  | nan => .nan

/-- The number, if there is one. -/
def get [Zero K] : Miss K → K
  | num x => x
  | nan => 0

/-- Conversion to `int` on a machine for `K`: NaN is treated like every number that is not finite. -/
def castFloor (m : CMachine K) : Option (Miss K) → Py ℤ
  | some (num x) => m.castFloor (some x)
  | _ => m.castFloor none

/-- The machine of `m` with NaNs. -/
def machine (m : CMachine K) : CMachine (Miss K) where
  castFloor := castFloor m
  add := m.add
  mul := m.mul
  ofInt := fun z => num (m.ofInt z)

end Miss

/-- Loop body of `max_eigenvalue_2x2` (ftle.py:149-161): if the trace or the square root is NaN, so
are both candidates and their maximum. -/
noncomputable def maxEig2M (C : Matrix (Fin 2) (Fin 2) (Miss ℝ)) : FVal :=
  match FVal.sqrt (disc2 (.num 4) C).toF, trace2 C with
  | .fin s, .num t => .fin (max (1 / 2 * (t + s)) (1 / 2 * (t - s)))
  | _, _ => .nan

/-- `1 / map_period`. -/
noncomputable def recipPeriodM : Miss ℝ → Py (Miss ℝ)
  | .num T => if T = 0 then .error .zeroDivisionError else .ok (.num (1 / T))
  | .nan => .ok .nan

/-- Product of `1 / map_period` with a result. -/
noncomputable def smulM : Miss ℝ → FVal → FVal
  | .num c, v => FVal.smul c v
  | .nan, _ => .nan

/-- `compute_ftle_2x2` (ftle.py:196-198). -/
noncomputable def ftle2M (Js : List (Matrix (Fin 2) (Fin 2) (Miss ℝ))) (T : Miss ℝ) :
    Py (List FVal) :=
  let eigs := (Js.map cauchyGreen2).map maxEig2M
  match recipPeriodM T with
  | .error e => .error e
  | .ok r => .ok (eigs.map fun l => smulM r (FVal.log (FVal.sqrt l)))

/-- `compute_cauchy_green_3x3` (ftle.py:96), one matrix of the batch: `F @ F^T`. -/
def cauchyGreen3M (F : Matrix (Fin 3) (Fin 3) (Miss ℝ)) : Matrix (Fin 3) (Fin 3) (Miss ℝ) :=
  Matrix.of fun i j => F i 0 * F j 0 + F i 1 * F j 1 + F i 2 * F j 2

open Classical in
/-- `max_eigenvalue_3x3` (ftle.py:118-119): `np.linalg.eigvals` checks the whole batch first
(`_assert_finite`) and raises `LinAlgError` if any entry of any matrix is not finite. -/
noncomputable def maxEigs3M (Cs : List (Matrix (Fin 3) (Fin 3) (Miss ℝ))) : Py (List FVal) :=
  if ∃ C ∈ Cs, ∃ i j, C i j = .nan then .error .linAlgError
  else pyMap maxEig3 (Cs.map fun C => Matrix.of fun i j => (C i j).get)

/-- `compute_ftle_3x3` (ftle.py:230-233). -/
noncomputable def ftle3M (Js : List (Matrix (Fin 3) (Fin 3) (Miss ℝ))) (T : Miss ℝ) :
    Py (List FVal) :=
  match maxEigs3M (Js.map cauchyGreen3M) with
  | .error e => .error e
  | .ok eigs =>
    match recipPeriodM T with
    | .error e => .error e
    | .ok r => .ok (eigs.map fun l => smulM r (FVal.log (FVal.sqrt l)))

end Verif

import Verif.Model.Interpolate

/-!
# Model of the factory functions `create_integrator` and `create_writer`

(`create_interpolator` is in `Model/Interpolate.lean`.)
-/

namespace Verif

/-- `create_integrator` (integrate.py:350-387); `lower` is `str.lower`.  The interpolator is
only stored. -/
def createIntegrator (lower : String → String) (name : String) : Py Kind :=
  let t := lower name
  if t = "ab2" then .ok .ab2
  else if t = "euler" then .ok .euler
  else if t = "rk4" then .ok .rk4
  else .error .valueError

/-- The two writer classes. -/
inductive WriterKind where
  | mat | vtk
  deriving DecidableEq, Repr

/-- `create_writer` (file_writers.py:269-302): which class is instantiated. -/
def createWriter (format : String) : Py WriterKind :=
  if format = "mat" then .ok .mat
  else if format = "vtk" then .ok .vtk
  else .error .valueError

end Verif

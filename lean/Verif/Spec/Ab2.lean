import Mathlib.Data.Matrix.Basic
import Mathlib.Data.Real.Basic
import Mathlib.Data.Matrix.Mul
import Mathlib.LinearAlgebra.Matrix.Notation

/-!
# Specification for AB2 on linear flows (C41, C42, C122)
-/

namespace Verif

variable {d : ℕ}

/-- The matrices of an AB2 run on `v = A x`: one step of Euler, then the two-step formula. -/
structure Ab2Matrices (A : Matrix (Fin d) (Fin d) ℝ) (h : ℝ)
    (M : ℕ → Matrix (Fin d) (Fin d) ℝ) : Prop where
  zero : M 0 = 1
  one : M 1 = 1 + h • A
  step : ∀ n, M (n + 2) = M (n + 1) + h • A * ((3 / 2 : ℝ) • M (n + 1) - (1 / 2 : ℝ) • M n)

end Verif

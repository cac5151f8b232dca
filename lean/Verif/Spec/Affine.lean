import Verif.Model.Integrate
import Mathlib.Data.Matrix.Mul
import Mathlib.Data.Real.Basic

/-!
# Affine flows and the matrices of the three methods
-/

namespace Verif

open Matrix

variable {d : ℕ}

/-- The velocity at time `t` is `A t x + b t`. -/
def IsAffine (v : ℝ → (Fin d → ℝ) → Fin d → ℝ) (A : ℝ → Matrix (Fin d) (Fin d) ℝ)
    (b : ℝ → Fin d → ℝ) : Prop :=
  ∀ t x, v t x = A t *ᵥ x + b t

/-- `M n` is the matrix of the first `n` steps of the method in a flow whose gradient at step `n`
is `A n`. -/
structure RunMatrices (k : Kind) (A : ℕ → Matrix (Fin d) (Fin d) ℝ) (h : ℝ)
    (M : ℕ → Matrix (Fin d) (Fin d) ℝ) : Prop where
  zero : M 0 = 1
  euler : k = .euler → ∀ n, M (n + 1) = (1 + h • A n) * M n
  rk4 : k = .rk4 → ∀ n, M (n + 1) = (1 + h • A n + (h ^ 2 / 2) • A n ^ 2 + (h ^ 3 / 6) • A n ^ 3 +
    (h ^ 4 / 24) • A n ^ 4) * M n
  first : k = .ab2 → M 1 = 1 + h • A 0
  ab2 : k = .ab2 → ∀ n, M (n + 2) = M (n + 1) + h • ((3 / 2 : ℝ) • (A (n + 1) * M (n + 1)) -
    (1 / 2 : ℝ) • (A n * M n))

end Verif

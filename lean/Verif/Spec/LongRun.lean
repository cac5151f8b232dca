import Verif.Model.Integrate
import Mathlib.Data.Matrix.Mul
import Mathlib.Analysis.Complex.Norm
import Mathlib.Order.Bounds.Basic

/-!
# Growth in steady flows, in the long run
-/

namespace Verif

open Matrix

variable {d : ℕ}

/-- `μ` is a complex eigenvalue of the real matrix `A`. -/
def IsComplexEigenvalue (A : Matrix (Fin d) (Fin d) ℝ) (μ : ℂ) : Prop :=
  ∃ v : Fin d → ℂ, v ≠ 0 ∧ A.map (fun x : ℝ => (x : ℂ)) *ᵥ v = μ • v

/-- The amplification factor of a one-step method: one step of the scalar equation `x' = μ x`
multiplies by `R (h μ)`. -/
inductive Amplifies : Kind → (ℂ → ℂ) → Prop
  | euler : Amplifies .euler fun z => 1 + z
  | rk4 : Amplifies .rk4 fun z => 1 + z + z ^ 2 / 2 + z ^ 3 / 6 + z ^ 4 / 24

/-- `ρ` is the greatest amplification of the modes of `A` in one step. -/
def IsGrowth (R : ℂ → ℂ) (A : Matrix (Fin d) (Fin d) ℝ) (h ρ : ℝ) : Prop :=
  IsGreatest {x | ∃ μ, IsComplexEigenvalue A μ ∧ x = ‖R (h * μ)‖} ρ

end Verif

import Verif.Spec.Flow
import Verif.Model.Integrate
import Mathlib.Analysis.Normed.Group.Constructions
import Mathlib.Analysis.Normed.Group.Real
import Mathlib.Data.Fin.VecNotation

/-!
# Bounds of the exponent by the strain of the data
-/

namespace Verif

/-- By what factor the distance of two particles grows in one step at most, when velocities at
distance `r` differ by at most `L r` and `a = |h| L`. -/
noncomputable def growth (k : Kind) (a : ℝ) : ℝ :=
  match k with
  | .euler => 1 + a
  | .ab2 => 1 + 2 * a
  | .rk4 => 1 + a + a ^ 2 / 2 + a ^ 3 / 6 + a ^ 4 / 24

/-- By what factor it shrinks at most; for the Adams-Bashforth method if `a ≤ 1/5`. -/
noncomputable def shrink (k : Kind) (a : ℝ) : ℝ :=
  match k with
  | .euler => 1 - a
  | .ab2 => 1 - 5 / 2 * a
  | .rk4 => 1 - a - a ^ 2 / 2 - a ^ 3 / 6 - a ^ 4 / 24

/-- Velocities at points of `S` differ by at most `L` times the distance. -/
def Strained {d : ℕ} (S : Set (Fin d → ℝ)) (g : (Fin d → ℝ) → Fin d → ℝ) (L : ℝ) : Prop :=
  ∀ x ∈ S, ∀ y ∈ S, ‖g x - g y‖ ≤ L * ‖x - y‖

/-- Neighbouring nodes of a grid: in the direction of `x` the samples differ by at most `s dx`, in that
of `y` by at most `s dy`. -/
def Slopes2 (w : (Fin 2 → ℝ) → Fin 2 → ℝ) (nx ny : ℕ) (x0 dx y0 dy s : ℝ) : Prop :=
  ∀ a < nx, ∀ b < ny, ∀ c,
    (a + 1 < nx → |w ![x0 + (a + 1) * dx, y0 + b * dy] c - w ![x0 + a * dx, y0 + b * dy] c| ≤ s * dx) ∧
    (b + 1 < ny → |w ![x0 + a * dx, y0 + (b + 1) * dy] c - w ![x0 + a * dx, y0 + b * dy] c| ≤ s * dy)

/-- The same in 3-D. -/
def Slopes3 (w : (Fin 3 → ℝ) → Fin 3 → ℝ) (m nz : ℕ) (x0 dx y0 dy z0 dz s : ℝ) : Prop :=
  ∀ a < m, ∀ b < m, ∀ e < nz, ∀ c,
    (a + 1 < m → |w ![x0 + (a + 1) * dx, y0 + b * dy, z0 + e * dz] c -
      w ![x0 + a * dx, y0 + b * dy, z0 + e * dz] c| ≤ s * dx) ∧
    (b + 1 < m → |w ![x0 + a * dx, y0 + (b + 1) * dy, z0 + e * dz] c -
      w ![x0 + a * dx, y0 + b * dy, z0 + e * dz] c| ≤ s * dy) ∧
    (e + 1 < nz → |w ![x0 + a * dx, y0 + b * dy, z0 + (e + 1) * dz] c -
      w ![x0 + a * dx, y0 + b * dy, z0 + e * dz] c| ≤ s * dz)

end Verif

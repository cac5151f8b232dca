import Verif.Spec.Trajectory

/-!
# Divergence
-/

namespace Verif

open Set

variable {d : ℕ}

/-- The sum of the derivatives of the components in their own directions. -/
noncomputable def divergence (w : (Fin d → ℝ) → Fin d → ℝ) (x : Fin d → ℝ) : ℝ :=
  ∑ i, fderiv ℝ w x (Pi.single i 1) i

/-- `D` is the divergence accumulated along the trajectory `X` since the time `t0`: what a small volume
has expanded, on the scale of logarithms. -/
def IsExpansion (v : ℝ → (Fin d → ℝ) → Fin d → ℝ) (U : Set ℝ) (t0 : ℝ) (X : ℝ → Fin d → ℝ)
    (D : ℝ → ℝ) : Prop :=
  D t0 = 0 ∧ ∀ t ∈ U, HasDerivWithinAt D (divergence (v t) (X t)) U t

/-- The volume of every part of the fluid stays the same. -/
def Incompressible (v : ℝ → (Fin d → ℝ) → Fin d → ℝ) : Prop := ∀ t x, divergence (v t) x = 0

end Verif

import Mathlib.Analysis.Calculus.Deriv.Basic
import Mathlib.Analysis.Normed.Group.Constructions
import Mathlib.Analysis.Calculus.FDeriv.Basic
import Mathlib.LinearAlgebra.Matrix.Notation

/-!
# Specification vocabulary: trajectories of a flow

Written without reference to the model.  Vectors carry the maximum norm.
-/

namespace Verif

open Filter

variable {d : ℕ}

/-- `X` is a trajectory of the velocity field `v` during the times `U`. -/
def IsTrajectory (v : ℝ → (Fin d → ℝ) → Fin d → ℝ) (U : Set ℝ) (X : ℝ → Fin d → ℝ) : Prop :=
  ∀ t ∈ U, HasDerivWithinAt X (v t (X t)) U t

/-- The times from `t0` to a little more than `t0 + T` (`T` may be negative). -/
def timesOf (t0 T η : ℝ) : Set ℝ := Set.uIcc t0 (t0 + (1 + η) * T)

/-- The velocities `g p i`, used in step `i` of `p` steps of `T / (p - 1)`, approach those of `v`
near the trajectory `X` as `p` grows. -/
def Approach (v : ℝ → (Fin d → ℝ) → Fin d → ℝ) (t0 T : ℝ) (X : ℝ → Fin d → ℝ)
    (g : ℕ → ℕ → (Fin d → ℝ) → Fin d → ℝ) : Prop :=
  ∃ r > 0, ∀ ε > 0, ∀ᶠ p : ℕ in atTop, ∀ i < p, ∀ z,
    ‖z - X (t0 + i * (T / ((p : ℝ) - 1)))‖ ≤ r →
    ‖g p i z - v (t0 + i * (T / ((p : ℝ) - 1))) z‖ ≤ ε

/-- The same in the band of half-width `r` around the trajectory. -/
def ApproachWithin (r : ℝ) (v : ℝ → (Fin d → ℝ) → Fin d → ℝ) (t0 T : ℝ) (X : ℝ → Fin d → ℝ)
    (g : ℕ → ℕ → (Fin d → ℝ) → Fin d → ℝ) : Prop :=
  ∀ ε > 0, ∀ᶠ p : ℕ in atTop, ∀ i < p, ∀ z,
    ‖z - X (t0 + i * (T / ((p : ℝ) - 1)))‖ ≤ r →
    ‖g p i z - v (t0 + i * (T / ((p : ℝ) - 1))) z‖ ≤ ε

open scoped Matrix in
/-- `M` is the deformation along the trajectory `X` since the time `t0`: it solves the variational
equation `M' = (gradient of v at X) M`, `M t0 = 1`, during the times `U`. -/
def IsDeformation (v : ℝ → (Fin d → ℝ) → Fin d → ℝ) (U : Set ℝ) (t0 : ℝ) (X : ℝ → Fin d → ℝ)
    (M : ℝ → Matrix (Fin d) (Fin d) ℝ) : Prop :=
  M t0 = 1 ∧ ∀ u, ∀ t ∈ U,
    HasDerivWithinAt (fun s => M s *ᵥ u) (fderiv ℝ (v t) (X t) (M t *ᵥ u)) U t

theorem approach_exact (v : ℝ → (Fin d → ℝ) → Fin d → ℝ) (t0 T : ℝ) (X : ℝ → Fin d → ℝ) :
    Approach v t0 T X fun p i => v (t0 + i * (T / ((p : ℝ) - 1))) :=
  ⟨1, one_pos, fun ε hε => Eventually.of_forall fun p i _ z _ => by
    rw [sub_self, norm_zero]; exact hε.le⟩

/-- The four points at distance `δ` to the left and right of, above and below `c`. -/
def cross2 (c : Fin 2 → ℝ) (δ : ℝ) : Fin 4 → Fin 2 → ℝ :=
  ![![c 0 - δ, c 1], ![c 0 + δ, c 1], ![c 0, c 1 + δ], ![c 0, c 1 - δ]]

/-- The six points at distance `δ` around `c`. -/
def cross3 (c : Fin 3 → ℝ) (δ : ℝ) : Fin 6 → Fin 3 → ℝ :=
  ![![c 0 - δ, c 1, c 2], ![c 0 + δ, c 1, c 2], ![c 0, c 1 + δ, c 2], ![c 0, c 1 - δ, c 2],
    ![c 0, c 1, c 2 + δ], ![c 0, c 1, c 2 - δ]]

end Verif

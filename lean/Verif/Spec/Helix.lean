import Verif.Model.Helical

/-!
# The flow around a rotating helical vortex

What the notebook describes: a vortex whose axis is the curve
`z ↦ (R₀ cos (k z + ω t), R₀ sin (k z + ω t), z)`.  In each horizontal plane the fluid circles the point
of the axis with a Gaussian core, and it rises near the axis.
-/

namespace Verif

namespace Helix

/-- Where the axis meets the plane of height `z` at the time `t`. -/
noncomputable def axis (H : Helix) (t z : ℝ) : Fin 2 → ℝ :=
  ![H.R0 * Real.cos (H.k * z + H.ω * t), H.R0 * Real.sin (H.k * z + H.ω * t)]

/-- Distance of a point from the axis, in its plane. -/
noncomputable def dist (H : Helix) (t : ℝ) (p : Fin 3 → ℝ) : ℝ :=
  √((p 0 - H.axis t (p 2) 0) ^ 2 + (p 1 - H.axis t (p 2) 1) ^ 2)

/-- Angular velocity around the axis. -/
noncomputable def spin (H : Helix) (t : ℝ) (p : Fin 3 → ℝ) : ℝ :=
  H.Γ / (2 * Real.pi * H.dist t p ^ 2) * (1 - Real.exp (-(H.dist t p / H.σ) ^ 2))

/-- The velocity at the point `p`. -/
noncomputable def velocity (H : Helix) (t : ℝ) (p : Fin 3 → ℝ) : Fin 3 → ℝ :=
  ![-(H.spin t p * (p 1 - H.axis t (p 2) 1)), H.spin t p * (p 0 - H.axis t (p 2) 0),
    H.Γ / (10 * Real.pi * H.R0) * Real.exp (-(H.dist t p / H.σ) ^ 2)]

/-- The radius, the circulation and the core are those of a vortex. -/
structure Proper (H : Helix) : Prop where
  R0 : 0 < H.R0
  Γ : 0 < H.Γ
  σ : 0 < H.σ

end Helix

/-- Length of a vector. -/
noncomputable def speed (v : Fin 3 → ℝ) : ℝ := √(v 0 ^ 2 + v 1 ^ 2 + v 2 ^ 2)

/-- Positions of `N` groups during `n` steps of length `h`, in which every particle moves with the
velocity of the vortex divided by the greatest speed among all particles. -/
structure ScaledPath (H : Helix) (h : ℝ) (N n : ℕ) (x : ℕ → Fin 6 → Fin 3 → ℝ)
    (X : ℕ → ℕ → Fin 6 → Fin 3 → ℝ) (M : ℕ → ℝ) : Prop where
  start : ∀ i < N, X 0 i = x i
  greatest : ∀ j < n, IsGreatest {s | ∃ i < N, ∃ b, s = speed (H.velocity 0 (X j i b))} (M j)
  step : ∀ j < n, ∀ i < N, ∀ b c, X (j + 1) i b c = X j i b c + h * (H.velocity 0 (X j i b) c / M j)

end Verif

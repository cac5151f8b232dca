import Verif.Spec.Survey
import Verif.Props.Grid64x3
import Verif.Props.Api64

/-!
# Specification of a survey of a flow in binary64

As `Verif.Spec.Survey`, for files of binary64 numbers: nodes are nearly equally spaced, samples are
nearly the velocities of the flow.
-/

namespace Verif

/-- The time at which field `i` starts, `start` being the time of the first file of the list. -/
noncomputable def Experiment.startTime64 (q : Experiment Fl) (start : ℝ) (i : ℕ) : ℝ :=
  start + q.first i * |q.timestep.re|

/-- The files of the experiment are a survey of the plane flow `v`.  Velocity file `j` of the list
holds, up to `ν`, the velocities at the time `start + j |h|` at the nodes of one grid, listed with `x`
varying fastest; the axes are within `ζ` of equally spaced ones.  Every coordinate file holds the
nodes; there are at least two of them, all different (with one the fast interpolator fails, C29).
Every particle file holds the seeds `P`. -/
structure Survey64 (fs : MatFS Fl) (q : Experiment Fl) (v : ℝ → (Fin 2 → ℝ) → Fin 2 → ℝ) (start : ℝ)
    (nx ny : ℕ) (xs ys : ℕ → Fl) (dx dy ζ ν : ℝ) (P : Particles Fl) : Prop where
  x : Nodes64 nx xs dx ζ
  y : Nodes64 ny ys dy ζ
  several : 2 ≤ q.coordinate.length
  distinct : q.coordinate.Nodup
  nodes : ∀ f ∈ q.coordinate, ∃ C, readCoordinate fs (String.ofList f) = .ok C ∧
    C.shape = [2, nx * ny] ∧
    ∀ a < nx, ∀ b < ny, C.get [0, a + nx * b] = xs a ∧ C.get [1, a + nx * b] = ys b
  samples : ∀ (j : ℕ) f, q.velocity[j]? = some f → ∃ V, readVelocity fs (String.ofList f) = .ok V ∧
    V.shape = [2, nx * ny] ∧ ∀ a < nx, ∀ b < ny, ∀ c : Fin 2,
      |(V.get [c, a + nx * b]).re - v (start + j * |q.timestep.re|) ![(xs a).re, (ys b).re] c| ≤ ν
  seeds : ∀ f ∈ q.particle, readSeedParticles fs (String.ofList f) = .ok P

/-- The same in space, on `m × m × nz` nodes in the default order of `numpy.meshgrid`: `z` fastest,
then `x`, then `y`. -/
structure Survey64x3 (fs : MatFS Fl) (q : Experiment Fl) (v : ℝ → (Fin 3 → ℝ) → Fin 3 → ℝ)
    (start : ℝ) (m nz : ℕ) (xs ys zs : ℕ → Fl) (dx dy dz ζ ν : ℝ) (P : Particles Fl) : Prop where
  x : Nodes64 m xs dx ζ
  y : Nodes64 m ys dy ζ
  z : Nodes64 nz zs dz ζ
  lim : (m : ℤ) * nz < intLim
  several : 2 ≤ q.coordinate.length
  distinct : q.coordinate.Nodup
  nodes : ∀ f ∈ q.coordinate, ∃ C, readCoordinate fs (String.ofList f) = .ok C ∧
    C.shape = [3, m * m * nz] ∧
    ∀ a < m, ∀ b < m, ∀ e < nz, C.get [0, (b * m + a) * nz + e] = xs a ∧
      C.get [1, (b * m + a) * nz + e] = ys b ∧ C.get [2, (b * m + a) * nz + e] = zs e
  samples : ∀ (j : ℕ) f, q.velocity[j]? = some f → ∃ V, readVelocity fs (String.ofList f) = .ok V ∧
    V.shape = [3, m * m * nz] ∧ ∀ a < m, ∀ b < m, ∀ e < nz, ∀ c : Fin 3,
      |(V.get [c, (b * m + a) * nz + e]).re -
        v (start + j * |q.timestep.re|) ![(xs a).re, (ys b).re, (zs e).re] c| ≤ ν
  seeds : ∀ f ∈ q.particle, readSeedParticles fs (String.ofList f) = .ok P

/-- The error of a velocity interpolated in a grid of spacing `Δ` whose nodes are displaced by at most
`ζ`, from samples with an error of at most `ν`: Lipschitz constant `L`, speed `B`. -/
noncomputable def gridError64 (L B Δ ζ ν : ℝ) : ℝ :=
  (1 + 2 ^ (-47 : ℤ)) * (ν + L * ((1 + 2 ^ (-19 : ℤ)) * Δ + ζ)) + 2 ^ (-47 : ℤ) * B +
    2 ^ (-1069 : ℤ)

/-- The Lipschitz constant of the rounded interpolation. -/
noncomputable def gridLip64 (L : ℝ) : ℝ := (1 + 2 ^ (-47 : ℤ)) * L

/-- Grid, time step and precision resolve the plane flow `v`.  `X i g b` is the exact trajectory of
seed `b` of group `g`, started with field `i`; `D i g` are the exact difference quotients of the group,
`σ i g` is their largest stretching and `b i g` a bound for the error of the computed quotients.
`L`, `B`, `M` are a Lipschitz constant and bounds on speed and acceleration; the trajectories keep
a distance `r` from the border and stay, with it, in the ball of radius `W`. -/
structure Resolved64 (q : Experiment Fl) (v : ℝ → (Fin 2 → ℝ) → Fin 2 → ℝ) (start : ℝ)
    (nx ny : ℕ) (xs ys : ℕ → Fl) (dx dy ζ ν : ℝ) (L B M r W : ℝ) (N : ℕ) (seed : NDArray Fl)
    (X : ℕ → ℕ → Fin 4 → ℝ → Fin 2 → ℝ) (D : ℕ → ℕ → Matrix (Fin 2) (Fin 2) ℝ)
    (σ b : ℕ → ℕ → ℝ) : Prop where
  two_le : 2 ≤ q.snapshots
  step : 2 ^ (-500 : ℤ) ≤ |q.timestep.re|
  span : ((q.snapshots : ℝ) - 1) * |q.timestep.re| ≤ 2 ^ 999
  radius : 0 ≤ r
  constant : 0 ≤ L
  small : SmallSteps
    (effError (gridError64 L B (max dx dy) ζ ν) (gridLip64 L)
      (stepRounding W (B + gridError64 L B (max dx dy) ζ ν + gridLip64 L * r) |q.timestep.re|)
      q.timestep.re)
    (gridLip64 L) B M q.timestep.re q.snapshots r
  lipschitz : ∀ j < q.velocity.length, ∀ w ∈ Rect64 nx ny xs ys, ∀ w' ∈ Rect64 nx ny xs ys,
    ‖v (start + j * |q.timestep.re|) w - v (start + j * |q.timestep.re|) w'‖ ≤ L * ‖w - w'‖
  trajectories : ∀ i < q.fields, ∀ g < N, ∀ b,
    Along v (q.startTime64 start i) q.timestep.re q.snapshots B M (X i g b) ∧
      X i g b (q.startTime64 start i) = reVec (groupOf seed 4 N 2 g b) ∧
      ∀ t ∈ Set.uIcc (q.startTime64 start i) (q.startTime64 start i + q.snapshots * q.timestep.re),
        ‖X i g b t‖ + r ≤ W
  inside : ∀ i < q.fields, ∀ g < N, ∀ b, ∀ j < q.snapshots, ∀ z : Fin 2 → ℝ,
    ‖z - X i g b (q.startTime64 start i + j * q.timestep.re)‖ ≤ r →
      OnAxis64 nx xs dx (z 0) ∧ OnAxis64 ny ys dy (z 1)
  stretching : ∀ i < q.fields, Stretch64 seed N q.snapshots q.timestep
    (steadyError q.snapshots q.timestep (gridError64 L B (max dx dy) ζ ν) (gridLip64 L) B M r W)
    (fun g b s => X i g b (q.startTime64 start i + s)) (D i) (σ i) (b i)

/-- The same in space. -/
structure Resolved64x3 (q : Experiment Fl) (v : ℝ → (Fin 3 → ℝ) → Fin 3 → ℝ) (start : ℝ)
    (m nz : ℕ) (xs ys zs : ℕ → Fl) (dx dy dz ζ ν : ℝ) (L B M r W : ℝ) (N : ℕ) (seed : NDArray Fl)
    (X : ℕ → ℕ → Fin 6 → ℝ → Fin 3 → ℝ) (D : ℕ → ℕ → Matrix (Fin 3) (Fin 3) ℝ)
    (σ b : ℕ → ℕ → ℝ) : Prop where
  two_le : 2 ≤ q.snapshots
  step : 2 ^ (-500 : ℤ) ≤ |q.timestep.re|
  span : ((q.snapshots : ℝ) - 1) * |q.timestep.re| ≤ 2 ^ 999
  radius : 0 ≤ r
  constant : 0 ≤ L
  small : SmallSteps
    (effError (gridError64 L B (max (max dx dy) dz) ζ ν) (gridLip64 L)
      (stepRounding W (B + gridError64 L B (max (max dx dy) dz) ζ ν + gridLip64 L * r)
        |q.timestep.re|)
      q.timestep.re)
    (gridLip64 L) B M q.timestep.re q.snapshots r
  lipschitz : ∀ j < q.velocity.length, ∀ w ∈ Box64 m nz xs ys zs, ∀ w' ∈ Box64 m nz xs ys zs,
    ‖v (start + j * |q.timestep.re|) w - v (start + j * |q.timestep.re|) w'‖ ≤ L * ‖w - w'‖
  trajectories : ∀ i < q.fields, ∀ g < N, ∀ b,
    Along v (q.startTime64 start i) q.timestep.re q.snapshots B M (X i g b) ∧
      X i g b (q.startTime64 start i) = reVec (groupOf seed 6 N 3 g b) ∧
      ∀ t ∈ Set.uIcc (q.startTime64 start i) (q.startTime64 start i + q.snapshots * q.timestep.re),
        ‖X i g b t‖ + r ≤ W
  inside : ∀ i < q.fields, ∀ g < N, ∀ b, ∀ j < q.snapshots, ∀ z : Fin 3 → ℝ,
    ‖z - X i g b (q.startTime64 start i + j * q.timestep.re)‖ ≤ r →
      OnAxis64 m xs dx (z 0) ∧ OnAxis64 m ys dy (z 1) ∧ OnAxis64 nz zs dz (z 2)
  stretching : ∀ i < q.fields, Stretch64x3 seed N q.snapshots q.timestep
    (steadyError q.snapshots q.timestep (gridError64 L B (max (max dx dy) dz) ζ ν) (gridLip64 L) B M
      r W)
    (fun g b s => X i g b (q.startTime64 start i + s)) (D i) (σ i) (b i)

end Verif

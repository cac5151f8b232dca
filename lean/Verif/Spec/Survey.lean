import Verif.Spec.Experiment
import Verif.Props.GridError

/-!
# Specification of a survey of a flow

What is in the files of an experiment when they come from a flow sampled on a uniform grid, and when
grid and time step resolve the flow.
-/

namespace Verif

/-- The value outside of an array, which is never read. -/
instance : Inhabited FVal := ⟨.fin 0⟩

/-- The number, in the list of velocity files, of the snapshot at which field `i` starts: runs
backward in time start at the end. -/
def Experiment.first {K : Type} [Zero K] [LT K] [DecidableLT K] (q : Experiment K) (i : ℕ) : ℕ :=
  if q.timestep < 0 then q.velocity.length - 1 - i else i

/-- The time at which field `i` starts, `start` being the time of the first file of the list. -/
noncomputable def Experiment.startTime (q : Experiment ℝ) (start : ℝ) (i : ℕ) : ℝ :=
  start + q.first i * |q.timestep|

/-- The files of the experiment are a survey of the plane flow `v`.  Velocity file `j` of the list
holds the velocities at the time `start + j |h|` at the nodes of one uniform grid, listed with `x`
varying fastest.  Every coordinate file holds the nodes; there are at least two of them, all
different (with one the fast interpolator fails, C29).  Every particle file holds the seeds `P`. -/
structure Survey2 (fs : MatFS ℝ) (q : Experiment ℝ) (v : ℝ → (Fin 2 → ℝ) → Fin 2 → ℝ) (start : ℝ)
    (nx ny : ℕ) (x0 dx y0 dy : ℝ) (P : Particles ℝ) : Prop where
  hnx : 2 ≤ nx
  hny : 2 ≤ ny
  lnx : (nx : ℤ) < intLim
  lny : (ny : ℤ) < intLim
  hdx : 0 < dx
  hdy : 0 < dy
  several : 2 ≤ q.coordinate.length
  distinct : q.coordinate.Nodup
  nodes : ∀ f ∈ q.coordinate, ∃ C, readCoordinate fs (String.ofList f) = .ok C ∧
    C.shape = [2, nx * ny] ∧
    ∀ a < nx, ∀ b < ny, C.get [0, a + nx * b] = x0 + a * dx ∧ C.get [1, a + nx * b] = y0 + b * dy
  samples : ∀ (j : ℕ) f, q.velocity[j]? = some f → ∃ V, readVelocity fs (String.ofList f) = .ok V ∧
    V.shape = [2, nx * ny] ∧ ∀ a < nx, ∀ b < ny, ∀ c : Fin 2,
      V.get [c, a + nx * b] = v (start + j * |q.timestep|) ![x0 + a * dx, y0 + b * dy] c
  seeds : ∀ f ∈ q.particle, readSeedParticles fs (String.ofList f) = .ok P

/-- The same in space, on `m × m × nz` nodes in the default order of `numpy.meshgrid`: `z` fastest,
then `x`, then `y`. -/
structure Survey3 (fs : MatFS ℝ) (q : Experiment ℝ) (v : ℝ → (Fin 3 → ℝ) → Fin 3 → ℝ) (start : ℝ)
    (m nz : ℕ) (x0 dx y0 dy z0 dz : ℝ) (P : Particles ℝ) : Prop where
  hm : 2 ≤ m
  hnz : 2 ≤ nz
  lm : (m : ℤ) < intLim
  lnz : (nz : ℤ) < intLim
  lmz : (m : ℤ) * nz < intLim
  hdx : 0 < dx
  hdy : 0 < dy
  hdz : 0 < dz
  several : 2 ≤ q.coordinate.length
  distinct : q.coordinate.Nodup
  nodes : ∀ f ∈ q.coordinate, ∃ C, readCoordinate fs (String.ofList f) = .ok C ∧
    C.shape = [3, m * m * nz] ∧
    ∀ a < m, ∀ b < m, ∀ c < nz, C.get [0, (b * m + a) * nz + c] = x0 + a * dx ∧
      C.get [1, (b * m + a) * nz + c] = y0 + b * dy ∧
      C.get [2, (b * m + a) * nz + c] = z0 + c * dz
  samples : ∀ (j : ℕ) f, q.velocity[j]? = some f → ∃ V, readVelocity fs (String.ofList f) = .ok V ∧
    V.shape = [3, m * m * nz] ∧ ∀ a < m, ∀ b < m, ∀ c < nz, ∀ e : Fin 3,
      V.get [e, (b * m + a) * nz + c] =
        v (start + j * |q.timestep|) ![x0 + a * dx, y0 + b * dy, z0 + c * dz] e
  seeds : ∀ f ∈ q.particle, readSeedParticles fs (String.ofList f) = .ok P

/-- The error of the largest stretching of a group of four points: velocities known up to `ε`,
Lipschitz constant `L`, speed `B`, acceleration `M`, `n` steps of `h`. -/
noncomputable def stretchError2 (ε L B M h : ℝ) (n : ℕ) (x : Fin 4 → Fin 2 → ℝ) : ℝ :=
  4 * posError ε L B M h n * (1 / |x 1 0 - x 0 0| + 1 / |x 2 1 - x 3 1|)

/-- The same for a group of six points. -/
noncomputable def stretchError3 (ε L B M h : ℝ) (n : ℕ) (x : Fin 6 → Fin 3 → ℝ) : ℝ :=
  6 * posError ε L B M h n *
    (1 / |x 1 0 - x 0 0| + 1 / |x 2 1 - x 3 1| + 1 / |x 4 2 - x 5 2|)

/-- Grid and time step resolve the plane flow `v`.  `X i g b` is the exact trajectory of seed `b` of
group `g`, started with field `i`; `σ i g` is the largest stretching of the group by the flow.
`L`, `B`, `M` are a Lipschitz constant and bounds on speed and acceleration; the trajectories keep
a distance `r` from the border. -/
structure Resolved2 (q : Experiment ℝ) (v : ℝ → (Fin 2 → ℝ) → Fin 2 → ℝ) (start : ℝ)
    (nx ny : ℕ) (x0 dx y0 dy : ℝ) (L B M r : ℝ) (N : ℕ) (x : ℕ → Fin 4 → Fin 2 → ℝ)
    (X : ℕ → ℕ → Fin 4 → ℝ → Fin 2 → ℝ) (σ : ℕ → ℕ → ℝ) : Prop where
  two_le : 2 ≤ q.snapshots
  step : q.timestep ≠ 0
  small : SmallSteps (L * max dx dy) L B M q.timestep q.snapshots r
  lipschitz : ∀ j < q.velocity.length, ∀ w ∈ Rect2 nx ny x0 dx y0 dy,
    ∀ w' ∈ Rect2 nx ny x0 dx y0 dy,
    ‖v (start + j * |q.timestep|) w - v (start + j * |q.timestep|) w'‖ ≤ L * ‖w - w'‖
  trajectories : ∀ i < q.fields, ∀ g < N, ∀ b,
    Along v (q.startTime start i) q.timestep q.snapshots B M (X i g b) ∧
      X i g b (q.startTime start i) = x g b
  inside : ∀ i < q.fields, ∀ g < N, ∀ b, ∀ j < q.snapshots, ∀ z,
    ‖z - X i g b (q.startTime start i + j * q.timestep)‖ ≤ r →
      OnAxis nx x0 dx (z 0) ∧ OnAxis ny y0 dy (z 1)
  stretching : ∀ i < q.fields, ∀ g < N, ∃ D,
    centralDiff2 (fun b => X i g b (q.startTime start i + q.snapshots * q.timestep)) (x g) = .ok D ∧
      IsMaxStretch D (σ i g) ∧
      stretchError2 (L * max dx dy) L B M q.timestep q.snapshots (x g) < σ i g

/-- The same in space. -/
structure Resolved3 (q : Experiment ℝ) (v : ℝ → (Fin 3 → ℝ) → Fin 3 → ℝ) (start : ℝ)
    (m nz : ℕ) (x0 dx y0 dy z0 dz : ℝ) (L B M r : ℝ) (N : ℕ) (x : ℕ → Fin 6 → Fin 3 → ℝ)
    (X : ℕ → ℕ → Fin 6 → ℝ → Fin 3 → ℝ) (σ : ℕ → ℕ → ℝ) : Prop where
  two_le : 2 ≤ q.snapshots
  step : q.timestep ≠ 0
  small : SmallSteps (L * max (max dx dy) dz) L B M q.timestep q.snapshots r
  lipschitz : ∀ j < q.velocity.length, ∀ w ∈ Box3 m nz x0 dx y0 dy z0 dz,
    ∀ w' ∈ Box3 m nz x0 dx y0 dy z0 dz,
    ‖v (start + j * |q.timestep|) w - v (start + j * |q.timestep|) w'‖ ≤ L * ‖w - w'‖
  trajectories : ∀ i < q.fields, ∀ g < N, ∀ b,
    Along v (q.startTime start i) q.timestep q.snapshots B M (X i g b) ∧
      X i g b (q.startTime start i) = x g b
  inside : ∀ i < q.fields, ∀ g < N, ∀ b, ∀ j < q.snapshots, ∀ z,
    ‖z - X i g b (q.startTime start i + j * q.timestep)‖ ≤ r →
      OnAxis m x0 dx (z 0) ∧ OnAxis m y0 dy (z 1) ∧ OnAxis nz z0 dz (z 2)
  stretching : ∀ i < q.fields, ∀ g < N, ∃ D,
    centralDiff3 (fun b => X i g b (q.startTime start i + q.snapshots * q.timestep)) (x g) = .ok D ∧
      IsMaxStretch D (σ i g) ∧
      stretchError3 (L * max (max dx dy) dz) L B M q.timestep q.snapshots (x g) < σ i g

/-- Two numbers `f ≈ ln σ / T` that a stretching known up to `e < σ` allows. -/
def Near (Λ T σ e : ℝ) : Prop := |Λ - 1 / T * Real.log σ| ≤ 1 / T * (e / (σ - e))

/-- The shape in which the particles are stored fits `N` groups. -/
def Experiment.ShapeFits {K : Type} (q : Experiment K) (N : ℕ) : Prop :=
  q.particlesGrid = none ∨ ∃ g sh, q.particlesGrid = some g ∧ GridShape g sh ∧ g.prod = N

/-- The record of a group: its value and the mean of its points. -/
noncomputable def groupRecordAt {n d : ℕ} (Λ : ℝ) (x : Fin n → Fin d → ℝ) : FVal × List ℝ :=
  (.fin Λ, List.ofFn fun c => (∑ b, x b c) / n)

end Verif

import Verif.Spec.Survey
import Mathlib.Algebra.BigOperators.Ring.Finset
import Mathlib.Algebra.Order.BigOperators.Group.Finset

/-!
# Specification of a survey at scattered points

What is assumed of SciPy's interpolators of scattered data, and what is in the files of an experiment
whose velocities were measured at arbitrary points of the plane.
-/

namespace Verif

open Finset

/-- Point `k` of an array of points, one per column. -/
def samplePoint {K : Type} (p : NDArray K) (k : ℕ) : Fin 2 → K := ![p.get [0, k], p.get [1, k]]

/-- The interpolator `me` on the `n` points `p` blends nearby values: it can be built for all values
at the points, it answers all queries, and its value at a point `z` of `R` is a weighted mean of
the values at sample points within `Δ` of `z`, with weights that do not depend on the values.

`NearestNDInterpolator` does so with one weight 1, `Δ` being the largest distance from a point of `R`
to its nearest sample point; `LinearNDInterpolator` with the barycentric coordinates of `z` in its
triangle, `Δ` being the largest diameter of a triangle and `R` the union of the triangles. -/
structure SciPy.Blends (sp : SciPy ℝ) (me : Scatter) (p : NDArray ℝ) (n : ℕ)
    (R : Set (Fin 2 → ℝ)) (Δ : ℝ) : Prop where
  build : ∀ w : NDArray ℝ, w.shape = [n] → sp.scatterBuild me p w = none
  call : ∃ W : (Fin 2 → ℝ) → ℕ → ℝ,
    (∀ z ∈ R, (∀ k < n, 0 ≤ W z k) ∧ ∑ k ∈ range n, W z k = 1 ∧
      ∀ k < n, W z k ≠ 0 → ‖samplePoint p k - z‖ ≤ Δ) ∧
    ∀ (w q : NDArray ℝ) (rows : ℕ), w.shape = [n] → q.shape = [rows, 2] →
      ∃ f, sp.scatterCall me p w q = .ok f ∧
        ∀ r < rows, rowOf q 2 r ∈ R → f r = ∑ k ∈ range n, W (rowOf q 2 r) k * w.get [k]

/-- The name of a method on the command line. -/
def Scatter.name : Scatter → String
  | .cubic => "cubic"
  | .linear => "linear"
  | .nearest => "nearest"

/-- The coordinate file that goes with velocity file `j`: the only one, or the one at the same
place of the list. -/
def Experiment.mesh {K : Type} (q : Experiment K) (j : ℕ) : Option (List Char) :=
  if q.coordinate.length = 1 then q.coordinate[0]? else q.coordinate[j]?

/-- The files of the experiment are a survey of the plane flow `v` at scattered points.  There is one
coordinate file for all snapshots or one for each of them; the coordinate file of snapshot `j` holds
`n j` points `p j`, and velocity file `j` the velocities there at the time `start + j |h|`.  Every
particle file holds the seeds `P`. -/
structure ScatteredSurvey (fs : MatFS ℝ) (q : Experiment ℝ) (v : ℝ → (Fin 2 → ℝ) → Fin 2 → ℝ)
    (start : ℝ) (p : ℕ → NDArray ℝ) (n : ℕ → ℕ) (P : Particles ℝ) : Prop where
  meshes : q.coordinate.length = 1 ∨ q.coordinate.length = q.velocity.length
  points : ∀ j < q.velocity.length, ∃ c, q.mesh j = some c ∧
    readCoordinate fs (String.ofList c) = .ok (p j) ∧ (p j).shape = [2, n j]
  samples : ∀ (j : ℕ) f, q.velocity[j]? = some f → ∃ V, readVelocity fs (String.ofList f) = .ok V ∧
    V.shape = [2, n j] ∧ ∀ k < n j, ∀ c : Fin 2,
      V.get [c, k] = v (start + j * |q.timestep|) (samplePoint (p j) k) c
  seeds : ∀ f ∈ q.particle, readSeedParticles fs (String.ofList f) = .ok P

/-- Sample points and time step resolve the plane flow `v`.  `X i g b` is the exact trajectory of seed
`b` of group `g`, started with field `i`; `σ i g` is the largest stretching of the group by the flow.
`L` is a Lipschitz constant of `v` between sample points and points of the trajectories; `B`, `M` are
bounds on speed and acceleration; the points within `r` of a trajectory lie in the region `R j` where
the interpolator blends values from within `Δ`. -/
structure ScatteredResolved (q : Experiment ℝ) (v : ℝ → (Fin 2 → ℝ) → Fin 2 → ℝ) (start : ℝ)
    (p : ℕ → NDArray ℝ) (n : ℕ → ℕ) (R : ℕ → Set (Fin 2 → ℝ)) (Δ L B M r : ℝ) (N : ℕ)
    (x : ℕ → Fin 4 → Fin 2 → ℝ) (X : ℕ → ℕ → Fin 4 → ℝ → Fin 2 → ℝ) (σ : ℕ → ℕ → ℝ) : Prop where
  two_le : 2 ≤ q.snapshots
  step : q.timestep ≠ 0
  small : SmallSteps (L * Δ) L B M q.timestep q.snapshots r
  lipschitz : ∀ i < q.fields, ∀ g < N, ∀ b, ∀ j < q.snapshots, ∀ k < n (q.first (i + j)),
    let t := q.startTime start i + j * q.timestep
    ‖v t (samplePoint (p (q.first (i + j))) k) - v t (X i g b t)‖ ≤
      L * ‖samplePoint (p (q.first (i + j))) k - X i g b t‖
  trajectories : ∀ i < q.fields, ∀ g < N, ∀ b,
    Along v (q.startTime start i) q.timestep q.snapshots B M (X i g b) ∧
      X i g b (q.startTime start i) = x g b
  inside : ∀ i < q.fields, ∀ g < N, ∀ b, ∀ j < q.snapshots, ∀ z,
    ‖z - X i g b (q.startTime start i + j * q.timestep)‖ ≤ r → z ∈ R (q.first (i + j))
  stretching : ∀ i < q.fields, ∀ g < N, ∃ D,
    centralDiff2 (fun b => X i g b (q.startTime start i + q.snapshots * q.timestep)) (x g) = .ok D ∧
      IsMaxStretch D (σ i g) ∧
      stretchError2 (L * Δ) L B M q.timestep q.snapshots (x g) < σ i g

end Verif

import Verif.Spec.Experiment

/-!
# Specification of a measurement that has gone on

Snapshots have been added at the end; the files that belong to the earlier snapshots are the same.
-/

namespace Verif

/-- The list of coordinate or seed files when `n` snapshots have become `n + k`: there is one file for
each snapshot and `k` files have been added, or the list is the same.  A list that is the same may have
any length if the run goes forward; if it goes backward, the added snapshots must go through it whole
times (a single file always). -/
def Continues {α : Type} (backward : Prop) (n k : ℕ) (old new : List α) : Prop :=
  (old.length = n ∧ ∃ more, more.length = k ∧ new = old ++ more) ∨
    (new = old ∧ (backward → old.length ∣ k))

/-- The experiment `q'` is `q` with `k` more snapshots. -/
structure Experiment.GrowsTo {K : Type} [Zero K] [LT K] (q : Experiment K) (k : ℕ) (q' : Experiment K) :
    Prop where
  velocity : ∃ more, more.length = k ∧ q'.velocity = q.velocity ++ more
  coordinate : Continues (q.timestep < 0) q.velocity.length k q.coordinate q'.coordinate
  particle : Continues (q.timestep < 0) q.velocity.length k q.particle q'.particle
  name : q'.name = q.name
  timestep : q'.timestep = q.timestep
  snapshots : q'.snapshots = q.snapshots
  integrator : q'.integrator = q.integrator
  interpolator : q'.interpolator = q.interpolator
  format : q'.format = q.format
  flowGrid : q'.flowGrid = q.flowGrid
  particlesGrid : q'.particlesGrid = q.particlesGrid

end Verif

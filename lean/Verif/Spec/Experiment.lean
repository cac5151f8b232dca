import Verif.Spec.ConfigFile
import Verif.Spec.Folder
import Verif.Model.Command
import Verif.Props.Program

/-!
# Specification of an experiment

What the user wants, without a parser or a program: an experiment, and when the options and the text
files ask for it.
-/

namespace Verif

/-- An experiment. -/
structure Experiment (K : Type) where
  name : Str
  velocity : List (List Char)
  coordinate : List (List Char)
  particle : List (List Char)
  timestep : K
  /-- snapshots per period -/
  snapshots : ℕ
  integrator : String
  interpolator : String
  format : String
  processes : ℤ
  flowGrid : Option (List ℕ)
  particlesGrid : Option (List ℕ)

/-- An experiment that makes sense: ordinary file names, something in each list, at least one
period, a choice for every option, a shape for the grid interpolator, at least one process. -/
structure Experiment.Sensible {K : Type} (q : Experiment K) : Prop where
  plain : ∀ f ∈ q.velocity ++ q.coordinate ++ q.particle, PlainPath f
  coordinate_ne : q.coordinate ≠ []
  particle_ne : q.particle ≠ []
  one_le : 1 ≤ q.snapshots
  enough : q.snapshots ≤ q.velocity.length
  shape : q.interpolator = "grid" → q.flowGrid ≠ none
  processes : 1 ≤ q.processes

/-- The number of FTLE fields of an experiment. -/
def Experiment.fields {K : Type} (q : Experiment K) : ℕ := q.velocity.length - q.snapshots + 1

/-- The shape of a grid according to the options `l`. -/
def ShapeIn (cd : CharData) (l : List (Opt × Str)) (o : Opt) (g : Option (List ℕ)) : Prop :=
  (∃ v t, LastValue l o v ∧ ShapeLiteral cd v t ∧ g = some (t.map Int.toNat)) ∨
    (∀ v, (o, v) ∉ l) ∧ g = none

/-- The options `l` with values ask for the experiment `q`.  `texts` are the text files; `per` is the
number of snapshots for a period and a time step. -/
structure Asks {K : Type} (cd : CharData) (float : Str → Option K) (texts : Str → Option Str)
    (per : K → K → Py ℤ) (l : List (Opt × Str)) (q : Experiment K) : Prop where
  valid : ∀ e ∈ l, ∃ x, ValueOf cd float e.1 e.2 x
  name : LastValue l .experimentName q.name
  velocity : ∃ v, LastValue l .listVelocityFiles v ∧ texts v = some (writeList q.velocity)
  coordinate : ∃ v, LastValue l .listCoordinateFiles v ∧ texts v = some (writeList q.coordinate)
  particle : ∃ v, LastValue l .listParticleFiles v ∧ texts v = some (writeList q.particle)
  timestep : ∃ v, LastValue l .snapshotTimestep v ∧ float v = some q.timestep
  snapshots : ∃ v T, LastValue l .flowMapPeriod v ∧ float v = some T ∧
    per T q.timestep = .ok q.snapshots
  integrator : LastValue l .integrator q.integrator.toList
  interpolator : LastValue l .interpolator q.interpolator.toList
  format : LastValue l .outputFormat q.format.toList
  processes : (∃ v, LastValue l .numProcesses v ∧ IntLiteral cd v q.processes) ∨
    (∀ v, (.numProcesses, v) ∉ l) ∧ q.processes = 1
  flowGrid : ShapeIn cd l .flowGridShape q.flowGrid
  particlesGrid : ShapeIn cd l .particlesGridShape q.particlesGrid

/-- The extension of the files: `.mat`, or `.vts` for a grid of particles and `.vtp` otherwise. -/
def Experiment.extension {K : Type} (q : Experiment K) : String :=
  if q.format = "mat" then ".mat" else if q.particlesGrid = none then ".vtp" else ".vts"

/-- The folder of the experiment can be made or is there, and the files with these names can be
saved in it. -/
structure Disk.Takes {α : Type} (d : Disk α) (p : PathStr) (names : List (List Char)) : Prop where
  tree : d.Tree
  straight : Straight p
  available : ∀ x ∈ d.way p, d.Available x
  unlocked : d.locked (d.target p) = false
  free : ∀ n ∈ names, d.node (d.target p ++ [n]) ≠ some .dir ∧
    d.locked (d.target p ++ [n]) = false ∧ d.target p ++ [n] ∉ d.way p

end Verif

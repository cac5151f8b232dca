import Verif.Model.Args
import Verif.Spec.IntLiteral

/-!
# Specification of command lines

What a command line says, without a parser: it is a sequence of options, each written as
`NAME VALUE` or `NAME=VALUE`, where the name may be shortened as long as it stays unambiguous.
-/

namespace Verif

/-- The documented names of the options (README.md:203-225). -/
def Opt.name : Opt → Str
  | .help => "--help".toList
  | .config => "--config".toList
  | .experimentName => "--experiment_name".toList
  | .listVelocityFiles => "--list_velocity_files".toList
  | .listCoordinateFiles => "--list_coordinate_files".toList
  | .listParticleFiles => "--list_particle_files".toList
  | .snapshotTimestep => "--snapshot_timestep".toList
  | .flowMapPeriod => "--flow_map_period".toList
  | .integrator => "--integrator".toList
  | .interpolator => "--interpolator".toList
  | .numProcesses => "--num_processes".toList
  | .outputFormat => "--output_format".toList
  | .flowGridShape => "--flow_grid_shape".toList
  | .particlesGridShape => "--particles_grid_shape".toList

/-- `n` is the name of `o` or an unambiguous abbreviation of it. -/
def Names (n : Str) (o : Opt) : Prop :=
  "--".toList <+: n ∧ ∀ o' : Opt, n <+: o'.name ↔ o' = o

/-- The options that end up in the result. -/
def Opt.Valued (o : Opt) : Prop := o ≠ .help ∧ o ≠ .config

/-- A negative number in plain decimal notation: `-5`, `-0.5`, `-.5`. -/
def PlainNegative (cd : CharData) (s : Str) : Prop :=
  ∃ as ds, (∀ c ∈ as, cd.digit c ≠ none) ∧ ds ≠ [] ∧ (∀ c ∈ ds, cd.digit c ≠ none) ∧
    (s = '-' :: ds ∨ s = '-' :: (as ++ '.' :: ds))

/-- `s` is read as an option because of its beginning. -/
def LikeOption (s : Str) : Prop :=
  "-h".toList <+: s ∨ "-c".toList <+: s ∨
    ∃ (n : Str) (o : Opt), "--".toList <+: n ∧ n <+: o.name ∧ (s = n ∨ ∃ x, s = n ++ '=' :: x)

/-- `s` can be the value of an option when written separately. -/
def Plain (cd : CharData) (s : Str) : Prop :=
  ¬ "-".toList <+: s ∨ s = "-".toList ∨
    (¬ LikeOption s ∧ (PlainNegative cd s ∨ (∃ t, s = t ++ "\n".toList ∧ PlainNegative cd t) ∨
      ' ' ∈ s))

/-- The command line consists of these options with these values. -/
inductive Reads (cd : CharData) : List Str → List (Opt × Str) → Prop
  | nil : Reads cd [] []
  | pair {n o v rest l} : Names n o → o.Valued → Plain cd v → Reads cd rest l →
      Reads cd (n :: v :: rest) ((o, v) :: l)
  | glued {n o v rest l} : Names n o → o.Valued → Reads cd rest l →
      Reads cd ((n ++ '=' :: v) :: rest) ((o, v) :: l)

/-- A grid shape: two or three positive integers between commas, one trailing `1` dropped. -/
def ShapeLiteral (cd : CharData) (s : Str) (t : List ℤ) : Prop :=
  ∃ parts vs, CommaParts s parts ∧ List.Forall₂ (IntLiteral cd) parts vs ∧
    (vs.length = 2 ∨ vs.length = 3) ∧ (∀ v ∈ vs, 0 < v) ∧
    (vs = t ++ [1] ∨ (t = vs ∧ ¬ ∃ ws, vs = ws ++ [1]))

/-- `x` is the value of option `o` written as `s`. -/
def ValueOf {K : Type} (cd : CharData) (float : Str → Option K) :
    (o : Opt) → Str → OptType K o → Prop
  | .snapshotTimestep, s, x | .flowMapPeriod, s, x => float s = some x
  | .numProcesses, s, x => IntLiteral cd s x
  | .flowGridShape, s, x | .particlesGridShape, s, x => ShapeLiteral cd s x
  | .integrator, s, x => x = s ∧ (s = "rk4".toList ∨ s = "euler".toList ∨ s = "ab2".toList)
  | .interpolator, s, x => x = s ∧
      (s = "cubic".toList ∨ s = "linear".toList ∨ s = "nearest".toList ∨ s = "grid".toList)
  | .outputFormat, s, x => x = s ∧ (s = "mat".toList ∨ s = "vtk".toList)
  | .help, s, x | .config, s, x | .experimentName, s, x | .listVelocityFiles, s, x
  | .listCoordinateFiles, s, x | .listParticleFiles, s, x => x = s

/-- The options that have to be given. -/
def Opt.Mandatory (o : Opt) : Prop :=
  o = .experimentName ∨ o = .listVelocityFiles ∨ o = .listCoordinateFiles ∨
    o = .listParticleFiles ∨ o = .snapshotTimestep ∨ o = .flowMapPeriod

/-- The value of an option that is not given: one process, nothing otherwise. -/
def Unset {K : Type} : (o : Opt) → Option (OptType K o) → Prop
  | .numProcesses, x => x = some (1 : ℤ)
  | _, x => x = none

/-- What a list of options with values means: every value is valid, nothing mandatory is missing,
and of several values of an option the last one counts. -/
structure Denotes {K : Type} (cd : CharData) (float : Str → Option K) (l : List (Opt × Str))
    (ns : (o : Opt) → Option (OptType K o)) : Prop where
  valid : ∀ p ∈ l, ∃ x, ValueOf cd float p.1 p.2 x
  mandatory : ∀ o : Opt, o.Mandatory → ∃ v, (o, v) ∈ l
  given : ∀ l₁ o v l₂, l = l₁ ++ (o, v) :: l₂ → (∀ w, (o, w) ∉ l₂) →
    ∃ x, ns o = some x ∧ ValueOf cd float o v x
  unset : ∀ o : Opt, (∀ v, (o, v) ∉ l) → Unset o (ns o)

/-- `v` is the last value given for `o`. -/
def LastValue (l : List (Opt × Str)) (o : Opt) (v : Str) : Prop :=
  ∃ l₁ l₂, l = l₁ ++ (o, v) :: l₂ ∧ ∀ w, (o, w) ∉ l₂

/-- The arguments of the program that the options `l` with values stand for.  `texts` gives the
contents of the list files, `per` the number of snapshots for a period and a time step. -/
structure ArgsOf {K : Type} (cd : CharData) (float : Str → Option K)
    (texts : Str → Option (List Char)) (per : K → K → Py ℤ) (l : List (Opt × Str))
    (a : ProgramArgs K) : Prop where
  velocity : ∃ v, LastValue l .listVelocityFiles v ∧ a.velocityList = texts v
  coordinate : ∃ v, LastValue l .listCoordinateFiles v ∧ a.coordinateList = texts v
  particle : ∃ v, LastValue l .listParticleFiles v ∧ a.particleList = texts v
  timestep : ∃ v, LastValue l .snapshotTimestep v ∧ float v = some a.timestep
  snapshots : ∃ v T, LastValue l .flowMapPeriod v ∧ float v = some T ∧
    a.snapshots = per T a.timestep
  integrator : ∀ s, a.options.integrator = some s ↔ LastValue l .integrator s.toList
  interpolator : ∀ s, a.options.interpolator = some s ↔ LastValue l .interpolator s.toList
  outputFormat : ∀ s, a.options.outputFormat = some s ↔ LastValue l .outputFormat s.toList
  processes : (∃ v, LastValue l .numProcesses v ∧ IntLiteral cd v a.processes) ∨
    (∀ v, (.numProcesses, v) ∉ l) ∧ a.processes = 1
  flowGridShape : (∃ v t, LastValue l .flowGridShape v ∧ ShapeLiteral cd v t ∧
      a.flowGridShape = some (t.map Int.toNat)) ∨
    (∀ v, (.flowGridShape, v) ∉ l) ∧ a.flowGridShape = none
  particlesGridShape : (∃ v t, LastValue l .particlesGridShape v ∧ ShapeLiteral cd v t ∧
      a.particlesGridShape = some (t.map Int.toNat)) ∨
    (∀ v, (.particlesGridShape, v) ∉ l) ∧ a.particlesGridShape = none

end Verif

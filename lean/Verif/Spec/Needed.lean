import Verif.Model.FileReaders

/-!
# Files an experiment needs
-/

namespace Verif

variable {K : Type}

/-- Arrays of equally many samples under the first two names, and under the third if it occurs. -/
def HoldsComponents (m : MatFile K) (x y z : String) : Prop :=
  ∃ a b, m x = some a ∧ m y = some b ∧ b.size = a.size ∧ ∀ c, m z = some c → c.size = a.size

/-- A file of velocities. -/
def IsVelocityFile (fs : MatFS K) (f : String) : Prop :=
  ∃ m, fs f = some m ∧ HoldsComponents m "velocity_x" "velocity_y" "velocity_z"

/-- A file of coordinates. -/
def IsCoordinateFile (fs : MatFS K) (f : String) : Prop :=
  ∃ m, fs f = some m ∧ HoldsComponents m "coordinate_x" "coordinate_y" "coordinate_z"

/-- A file of seeds. -/
def IsSeedFile (fs : MatFS K) (f : String) : Prop :=
  ∃ m, fs f = some m ∧ ∀ k ∈ ["left", "right", "top", "bottom"], ∃ a, m k = some a

/-- Some files have been taken away, the others are as before. -/
def TakenFrom (fs' fs : MatFS K) : Prop :=
  ∀ g, fs' g = fs g ∨ fs' g = none

/-- The files needed for all windows of `p` snapshots: every velocity file, as many coordinate files as
there are velocity files, as many seed files as there are windows (in the order of the run; shorter
lists are used again from their beginning). -/
def neededFiles (V C P : List String) (p : ℕ) : List String :=
  V ++ C.take V.length ++ P.take (V.length - p + 1)

end Verif

import Verif.Model.DataSource

/-!
# Data under other names

Two sources of a run whose files hold the same data, whatever the names of the files are.
-/

namespace Verif

variable {K : Type}

/-- The files of `s` in `fs` hold the same data, in the same order, as those of `s'` in `fs'`, and
the time step is the same. -/
structure SameContents (fs : MatFS K) (s : FileSource K) (fs' : MatFS K) (s' : FileSource K) :
    Prop where
  snapshots : s.snapshotFiles.map fs = s'.snapshotFiles.map fs'
  coordinates : s.coordinateFiles.map fs = s'.coordinateFiles.map fs'
  seeds : fs s.particleFile = fs' s'.particleFile
  timestep : s.timestep = s'.timestep

end Verif

import Verif.Model.Particles

/-!
# Model of `src/pyftle/file_readers.py`

A `.mat` file is the dictionary returned by `scipy.io.loadmat`: a partial map from
variable names to arrays.  The file system maps paths to such files; a path without
a file makes `loadmat` raise `FileNotFoundError`.  The `.mat` encoding itself is not
modelled.
-/

namespace Verif

variable {K : Type*}

/-- The dictionary returned by `loadmat`. -/
abbrev MatFile (K : Type*) := String → Option (NDArray K)

/-- Files on disk. -/
abbrev MatFS (K : Type*) := String → Option (MatFile K)

/-- `loadmat(path)`. -/
def loadmat (fs : MatFS K) (path : String) : Py (MatFile K) :=
  match fs path with
  | some f => .ok f
  | none => .error .fileNotFoundError

/-- Common body of the two field readers: require `kx`, `ky`; `ravel` (C order) and
`np.stack`, with `kz` as third row when present. -/
def readComponents (data : MatFile K) (kx ky kz : String) : Py (NDArray K) :=
  match data kx, data ky with
  | some x, some y =>
    match data kz with
    | some z => NDArray.stack x.ravelC [y.ravelC, z.ravelC]
    | none => NDArray.stack x.ravelC [y.ravelC]
  | _, _ => .error .valueError

/-- `read_velocity` (file_readers.py:35-76). -/
def readVelocity (fs : MatFS K) (path : String) : Py (NDArray K) :=
  match loadmat fs path with
  | .error e => .error e
  | .ok data => readComponents data "velocity_x" "velocity_y" "velocity_z"

/-- `read_coordinate` (file_readers.py:79-118). -/
def readCoordinate (fs : MatFS K) (path : String) : Py (NDArray K) :=
  match loadmat fs path with
  | .error e => .error e
  | .ok data => readComponents data "coordinate_x" "coordinate_y" "coordinate_z"

/-- `read_seed_particles_coordinates` (file_readers.py:121-182): four mandatory
blocks, six when both `front` and `back` are present, concatenated along axis 0. -/
def readSeedParticles [Add K] [Sub K] [Div K] [NatCast K] (fs : MatFS K) (path : String) :
    Py (Particles K) :=
  match loadmat fs path with
  | .error e => .error e
  | .ok data =>
    match data "left", data "right", data "top", data "bottom" with
    | some left, some right, some top, some bottom =>
      let positions :=
        match data "front", data "back" with
        | some front, some back => NDArray.concat0 [left, right, top, bottom, front, back]
        | _, _ => NDArray.concat0 [left, right, top, bottom]
      match positions with
      | .error e => .error e
      | .ok pos => mkParticles pos
    | _, _, _, _ => .error .valueError

end Verif

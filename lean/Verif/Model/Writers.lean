import Verif.Py.NDArray
import Verif.Model.Factories

/-!
# Model of `src/pyftle/file_writers.py`

A written file is the content handed to `savemat` / to the PyVista mesh before `save`; the
binary encodings are not modelled.  Here an existing writable directory is assumed; directory
creation (`os.makedirs`, file_writers.py:37-41) is in `Model/Disk.lean`.  Grid shapes are lists of naturals:
NumPy's placeholder `-1` is not modelled (the command line rejects it).

Contract for PyVista (0.43–0.46):
* `StructuredGrid(x, y, z)` with 3-D arrays of one shape has dimensions `x.shape` and the
  points `(x.ravel("F")[p], y.ravel("F")[p], z.ravel("F")[p])`;
* `PolyData(points)` needs an array of shape `(n, 3)` (else `ValueError`) and makes one vertex
  cell per point;
* `mesh[name] = a` stores `a` with the points if its length is the number of points, otherwise
  with the cells if its length is the number of cells, otherwise raises `ValueError`.
-/

namespace Verif

variable {K F : Type}

/-- Attributes of an `FTLEWriter` (file_writers.py:37-44). -/
structure Writer where
  kind : WriterKind
  gridShape : Option (List ℕ)
  dim : Option ℕ

/-- `MatWriter(path, grid_shape)` / `VTKWriter(path, grid_shape)`. -/
def Writer.fresh (kind : WriterKind) (gridShape : Option (List ℕ)) : Writer := ⟨kind, gridShape, none⟩

/-- Where VTK attaches an array. -/
inductive Assoc where
  | points
  | cells
deriving DecidableEq

/-- A file that has been written. -/
inductive Saved (K F : Type) where
  /-- `savemat(name, {"ftle": ..., "x": ..., "y": ..., ["z": ...]})` -/
  | mat (name : String) (ftle : NDArray F) (x y : NDArray K) (z : Option (NDArray K))
  /-- a `StructuredGrid` -/
  | vts (name : String) (dims : List ℕ) (points : NDArray K) (assoc : Assoc) (ftle : NDArray F)
  /-- a `PolyData` -/
  | vtp (name : String) (points : NDArray K) (assoc : Assoc) (ftle : NDArray F)

/-- `a[..., c]`. -/
def lastCol (a : NDArray K) (c : ℕ) : Py (NDArray K) :=
  match a.shape.getLast? with
  | none => .error .indexError
  | some d => if c < d then .ok (a.lastAxis c) else .error .indexError

/-- `a[:, c]`. -/
def column (a : NDArray K) (c : ℕ) : Py (NDArray K) :=
  match a.shape with
  | n :: d :: rest =>
    if c < d then .ok ⟨n :: rest, fun idx =>
      match idx with
      | r :: is => a.get (r :: c :: is)
      | [] => a.get []⟩
    else .error .indexError
  | _ => .error .indexError

/-- `mesh["ftle"] = values` for a mesh with the given numbers of points and cells. -/
def attach (nPoints nCells : ℕ) (values : NDArray F) : Py Assoc :=
  if values.shape.headD 0 = nPoints then .ok .points
  else if values.shape.headD 0 = nCells then .ok .cells
  else .error .valueError

/-- Number of cells of a structured grid. -/
def structuredCells (dims : List ℕ) : ℕ :=
  if 0 ∈ dims then 0 else (dims.map fun d => if 1 < d then d - 1 else 1).prod

/-- `pv.StructuredGrid(x, y, z)`: the points. -/
def structuredPoints (x y z : NDArray K) : NDArray K :=
  ⟨[x.size, 3], fun idx =>
    match idx with
    | [p, 0] => x.ravelF.get [p]
    | [p, 1] => y.ravelF.get [p]
    | p :: _ => z.ravelF.get [p]
    | [] => x.get []⟩

/-- `np.hstack([a, np.zeros((a.shape[0], 1))])` for a 2-D array. -/
def appendZeroColumn [Zero K] (a : NDArray K) : Py (NDArray K) :=
  match a.shape with
  | [n, d] => .ok ⟨[n, d + 1], fun idx =>
    match idx with
    | [r, c] => if c < d then a.get [r, c] else 0
    | _ => a.get idx⟩
  | _ => .error .valueError

/-- The optional third component. -/
def optionalZ (dim : ℕ) (z : Py (NDArray K)) : Py (Option (NDArray K)) :=
  if dim = 3 then
    match z with
    | .error e => .error e
    | .ok a => .ok (some a)
  else .ok none

/-- `MatWriter.write` after `self.dim` is known (file_writers.py:121-164). -/
def writeMat (shape : Option (List ℕ)) (dim : ℕ) (name : String) (field : NDArray F)
    (centroids : NDArray K) : Py (Saved K F) :=
  -- `if self.grid_shape:` -- an empty tuple counts as no shape
  match shape with
  | none | some [] =>
    match column centroids 0 with
    | .error e => .error e
    | .ok x =>
      match column centroids 1 with
      | .error e => .error e
      | .ok y =>
        match optionalZ dim (column centroids 2) with
        | .error e => .error e
        | .ok z => .ok (.mat (name ++ ".mat") field.ravelC x y z)
  | some g =>
    let sh : Py (List ℕ) :=
      match g with
      | [nx, ny] => .ok [nx, ny, 1]
      | [nx, ny, nz] => .ok [nx, ny, nz]
      | _ => .error .valueError
    match sh with
    | .error e => .error e
    | .ok sh =>
      match field.reshapeC sh with
      | .error e => .error e
      | .ok f =>
        match centroids.reshapeC (sh ++ [dim]) with
        | .error e => .error e
        | .ok c =>
          match lastCol c 0 with
          | .error e => .error e
          | .ok x =>
            match lastCol c 1 with
            | .error e => .error e
            | .ok y =>
              match optionalZ dim (lastCol c 2) with
              | .error e => .error e
              | .ok z => .ok (.mat (name ++ ".mat") f x y z)

/-- `VTKWriter.write` after `self.dim` is known (file_writers.py:219-266). -/
def writeVtk [Zero K] (shape : Option (List ℕ)) (dim : ℕ) (name : String) (field : NDArray F)
    (centroids : NDArray K) : Py (Saved K F) :=
  match shape with
  | some [nx, ny] =>
    match centroids.reshapeF [nx, ny, 1, dim] with
    | .error e => .error e
    | .ok c =>
      match lastCol c 0 with
      | .error e => .error e
      | .ok x =>
        match lastCol c 1 with
        | .error e => .error e
        | .ok y =>
          let z : NDArray K := ⟨x.shape, fun _ => 0⟩
          let values := field.ravelF
          match attach x.size (structuredCells x.shape) values with
          | .error e => .error e
          | .ok a => .ok (.vts (name ++ ".vts") x.shape (structuredPoints x y z) a values)
  | some [nx, ny, nz] =>
    match centroids.reshapeC [nx, ny, nz, dim] with
    | .error e => .error e
    | .ok c =>
      match lastCol c 0 with
      | .error e => .error e
      | .ok x =>
        match lastCol c 1 with
        | .error e => .error e
        | .ok y =>
          match lastCol c 2 with
          | .error e => .error e
          | .ok z =>
            match field.reshapeC [nx, ny, nz] with
            | .error e => .error e
            | .ok f =>
              let values := (f.transpose [1, 0, 2]).ravelF
              match attach x.size (structuredCells x.shape) values with
              | .error e => .error e
              | .ok a => .ok (.vts (name ++ ".vts") x.shape (structuredPoints x y z) a values)
  | some _ => .error .valueError
  | none =>
    let points : Py (NDArray K) := if dim = 2 then appendZeroColumn centroids else .ok centroids
    match points with
    | .error e => .error e
    | .ok pts =>
      match pts.shape with
      | [n, 3] =>
        match attach n n field.ravelC with
        | .error e => .error e
        | .ok a => .ok (.vtp (name ++ ".vtp") pts a field.ravelC)
      | _ => .error .valueError

/-- `write(filename, ftle_field, particles_centroid)`: `self.dim` is set by the first call and
kept (file_writers.py:117-119, 215-217). -/
def Writer.write [Zero K] (w : Writer) (name : String) (field : NDArray F)
    (centroids : NDArray K) : Writer × Py (Saved K F) :=
  let dim : Py ℕ :=
    match w.dim with
    | some d => .ok d
    | none =>
      match centroids.shape[1]? with
      | some d => .ok d
      | none => .error .indexError
  match dim with
  | .error e => (w, .error e)
  | .ok d =>
    ({ w with dim := some d },
      match w.kind with
      | .mat => writeMat w.gridShape d name field centroids
      | .vtk => writeVtk w.gridShape d name field centroids)

end Verif

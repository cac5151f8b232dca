import Verif.Model.Writers
import Mathlib.Data.List.Perm.Basic

/-!
# Specification of the output files

What an output file says is a collection of records: a value together with the location it is
attached to.  A file is right when these records are, up to order, the records of the groups.
-/

namespace Verif

variable {K F : Type}

/-- The record of group `i`: its value and its `d` coordinates. -/
def groupRecord (field : NDArray F) (centroids : NDArray K) (d i : ℕ) : F × List K :=
  (field.get [i], (List.range d).map fun c => centroids.get [i, c])

/-- The records of `n` groups. -/
def groupRecords (n d : ℕ) (field : NDArray F) (centroids : NDArray K) : List (F × List K) :=
  (List.range n).map (groupRecord field centroids d)

/-- The same records in space: a missing third coordinate is zero. -/
def spaceRecords [Zero K] (n d : ℕ) (field : NDArray F) (centroids : NDArray K) :
    List (F × List K) :=
  (groupRecords n d field centroids).map fun r => (r.1, r.2 ++ List.replicate (3 - d) 0)

/-- The records a reader of the file finds: for a `.mat` file the entries of equal multi-index
of equally shaped arrays, for a VTK file the points and the values attached to them.  `none` if
the file has no such reading (arrays of different shapes, values attached to cells). -/
def Saved.records : Saved K F → Option (List (F × List K))
  | .mat _ ftle x y z =>
    if x.shape = ftle.shape ∧ y.shape = ftle.shape ∧ ∀ a ∈ z, a.shape = ftle.shape then
      some ((List.range ftle.size).map fun p =>
        let idx := decC ftle.shape p
        (ftle.get idx, [x.get idx, y.get idx] ++ (z.map fun a => a.get idx).toList))
    else none
  | .vts _ _ points .points ftle | .vtp _ points .points ftle =>
    if points.shape = ftle.shape ++ [3] then
      some ((List.range ftle.size).map fun p =>
        (ftle.get [p], (List.range 3).map fun c => points.get [p, c]))
    else none
  | .vts _ _ _ .cells _ | .vtp _ _ .cells _ => none

/-- The file says exactly `records`. -/
def Saved.Says (s : Saved K F) (records : List (F × List K)) : Prop :=
  ∃ l, s.records = some l ∧ l.Perm records

/-- The grid `(nx, ny, nz)` meant by a shape of length two or three. -/
inductive GridShape : List ℕ → List ℕ → Prop
  | two (nx ny : ℕ) : GridShape [nx, ny] [nx, ny, 1]
  | three (nx ny nz : ℕ) : GridShape [nx, ny, nz] [nx, ny, nz]

/-- The value a reader finds at the grid node `idx` of a structured file.  VTK numbers the points
of a structured grid with the first index fastest. -/
def Saved.nodeValue : Saved K F → List ℕ → Option F
  | .mat _ ftle _ _ _, idx => if ValidIdx ftle.shape idx then some (ftle.get idx) else none
  | .vts _ dims _ .points ftle, idx =>
    if ValidIdx dims idx then some (ftle.get [encF dims idx]) else none
  | .vts _ _ _ .cells _, _ => none
  | .vtp .., _ => none

end Verif

import Verif.Spec.Interp
import Verif.Props.Snapshots

/-!
# Specification vocabulary for moving observers

Snapshots on a uniform grid that may be somewhere else in every snapshot, and the same data as
recorded by an observer in motion: positions are shifted by the displacement of the observer,
velocities by its velocity.
-/

namespace Verif

variable {K : Type} [Field K] [LinearOrder K] [FloorRing K]

/-- `c j` is the displacement of the observer at snapshot `j`, `w j` its velocity until the next
snapshot, `h` the time between snapshots. -/
def Moves {d : ℕ} (h : K) (c w : ℕ → Fin d → K) : Prop := ∀ j k, c (j + 1) k = c j k + h * w j k

/-- Snapshot `j` of the source lists the velocities `f j` at the nodes of an `nx × ny` grid with
spacings `dx`, `dy` whose first node is at `o j`; `x` runs fastest, and the coordinates are handed
out in every step. -/
structure Snaps2 (fs : MatFS K) (s : FileSource K) (nx ny : ℕ) (dx dy : K) (o : ℕ → Fin 2 → K)
    (f : ℕ → Fin 2 → ℕ → ℕ → K) : Prop where
  fresh : s.reuseCoordinates = false
  hnx : 2 ≤ nx
  hny : 2 ≤ ny
  lnx : (nx : ℤ) < intLim
  lny : (ny : ℤ) < intLim
  hdx : 0 < dx
  hdy : 0 < dy
  data : ∀ j < s.snapshotFiles.length, ∃ V P, s.Listed fs j V P ∧
    V.shape = [2, nx * ny] ∧ P.shape = [2, nx * ny] ∧
    (∀ a < nx, ∀ b < ny, P.get [0, a + nx * b] = o j 0 + a * dx ∧
      P.get [1, a + nx * b] = o j 1 + b * dy) ∧
    ∀ a < nx, ∀ b < ny, ∀ c : Fin 2, V.get [c, a + nx * b] = f j c a b

/-- The same in three dimensions for an `m × m × nz` grid listed with `z` fastest, then `x`, then
`y` (for grids with other numbers of nodes in `x` and `y` see C30). -/
structure Snaps3 (fs : MatFS K) (s : FileSource K) (m nz : ℕ) (dx dy dz : K) (o : ℕ → Fin 3 → K)
    (f : ℕ → Fin 3 → ℕ → ℕ → ℕ → K) : Prop where
  fresh : s.reuseCoordinates = false
  hm : 2 ≤ m
  hnz : 2 ≤ nz
  lm : (m : ℤ) < intLim
  lnz : (nz : ℤ) < intLim
  lmz : (m : ℤ) * nz < intLim
  hdx : 0 < dx
  hdy : 0 < dy
  hdz : 0 < dz
  data : ∀ j < s.snapshotFiles.length, ∃ V P, s.Listed fs j V P ∧
    V.shape = [3, m * m * nz] ∧ P.shape = [3, m * m * nz] ∧
    (∀ a < m, ∀ b < m, ∀ e < nz, P.get [0, (b * m + a) * nz + e] = o j 0 + a * dx ∧
      P.get [1, (b * m + a) * nz + e] = o j 1 + b * dy ∧
      P.get [2, (b * m + a) * nz + e] = o j 2 + e * dz) ∧
    ∀ a < m, ∀ b < m, ∀ e < nz, ∀ c : Fin 3, V.get [c, (b * m + a) * nz + e] = f j c a b e

/-- Bilinear interpolation of snapshot `j`, 0 outside the cells of its grid. -/
def field2 (nx ny : ℕ) (dx dy : K) (o : ℕ → Fin 2 → K) (f : ℕ → Fin 2 → ℕ → ℕ → K) (j : ℕ)
    (z : Fin 2 → K) : Fin 2 → K := fun c =>
  cellValue2 nx ny (f j c) ((z 0 - o j 0) / dx) ((z 1 - o j 1) / dy)

/-- Trilinear interpolation of snapshot `j`. -/
def field3 (m nz : ℕ) (dx dy dz : K) (o : ℕ → Fin 3 → K) (f : ℕ → Fin 3 → ℕ → ℕ → ℕ → K) (j : ℕ)
    (z : Fin 3 → K) : Fin 3 → K := fun c =>
  cellValue3 m m nz (f j c) ((z 0 - o j 0) / dx) ((z 1 - o j 1) / dy) ((z 2 - o j 2) / dz)

/-- The cells of the grid of snapshot `j`. -/
def Within2 (nx ny : ℕ) (dx dy : K) (o : ℕ → Fin 2 → K) (j : ℕ) (z : Fin 2 → K) : Prop :=
  InCells nx ((z 0 - o j 0) / dx) ∧ InCells ny ((z 1 - o j 1) / dy)

/-- The cells of the grid of snapshot `j`. -/
def Within3 (m nz : ℕ) (dx dy dz : K) (o : ℕ → Fin 3 → K) (j : ℕ) (z : Fin 3 → K) : Prop :=
  InCells m ((z 0 - o j 0) / dx) ∧ InCells m ((z 1 - o j 1) / dy) ∧ InCells nz ((z 2 - o j 2) / dz)

end Verif
